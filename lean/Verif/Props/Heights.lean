import Verif.Model.Heights
import Verif.Props.FileRun

/-! # C133, C134 — the heights used for the correction -/

namespace PyG2P
open Spec TableApply Converter Aggregator Reader
variable {n k : Nat} {α : Type}

namespace Spec

/-- A geopotential message, by its name; level, step and date do not matter. -/
def geopotential (m : GMsg α) : Bool :=
  decide (m.shortName = "fis".toList ∨ m.shortName = "z".toList ∨ m.shortName = "FIS".toList ∨
    m.shortName = "orog".toList)

/-- The geopotential messages of a file: on one grid, no two with the same steps and level, with missing value `mv`. -/
structure GeoFile (file : List (GMsg α)) (mv : ℚ) : Prop where
  some_ : ∃ m ∈ file, geopotential m = true
  grid : ∃ nj, ∀ m ∈ file, geopotential m = true → m.nj = nj
  differ : (file.filter geopotential).Pairwise Differ
  missing : ∀ m ∈ file, geopotential m = true → m.missingValue = .fin mv
  dated : ∀ m ∈ file, geopotential m = true → (reference m).isSome = true

/-- The input has a geopotential message; if a member is asked for, one of that member. -/
def OwnGeo (file : List (GMsg α)) (p : SelPar) : Prop :=
  ∃ m ∈ file, geopotential m = true ∧ asked p.perturbation (Dict.get? m.other "perturbationNumber".toList) = true

end Spec

theorem geopotential_mem (m : GMsg α) : geopotential m = true ↔ m.shortName ∈ geoNames := by
  unfold geopotential geoNames
  rw [decide_eq_true_iff, List.mem_cons, List.mem_cons, List.mem_cons, List.mem_singleton]

theorem geopotential_iff (m : GMsg α) : geopotential m = true ↔ Spec.Matches m geoCmd := by
  rw [geopotential_mem]
  unfold geoCmd
  rw [matches_single m _ _ _ (get?_shortName m)]
  unfold Cond.holds
  rw [decide_eq_true_iff, List.mem_map]
  constructor
  · intro h; exact ⟨_, h, rfl⟩
  · rintro ⟨s, h, he⟩; injection he with he; rw [← he]; exact h

theorem geoNames_nodup : geoNames.Nodup := by decide +kernel

theorem geoCmd_names : shortNames (.mem (geoNames.map KV.str)) = geoNames := by decide +kernel

/-- The geopotential messages of a file are found, each once. -/
theorem geo_found (file : List (GMsg α)) (r : Reader) (hsrc : (∃ b, r.src = .index b) ∨ r.src = .file 0) :
    ∃ g r', getGids file r geoCmd = (.ok g, r') ∧
      ((msgsOf file g).map (·.2)).Perm (file.filter geopotential) ∧ ∀ q ∈ g, ∃ m, file[q.2]? = some m := by
  obtain ⟨g, r', hg, -, hs⟩ := scan_exact file r geoCmd (.mem (geoNames.map KV.str)) (by rfl) (fun p h => by cases h)
    (by rw [geoCmd_names]; exact geoNames_nodup) hsrc
  have hex : excludesZero geoCmd = false := by rfl
  refine ⟨g, r', ?_, selected_perm file g _ hs.once fun i => ?_, fun q hq => ?_⟩
  · unfold getGids
    rw [hg]
    dsimp only
    rw [hex, if_neg (fun h => by cases h.2)]
  · rw [hs.exact_]
    unfold Spec.MatchesAt
    simp only [geopotential_iff]
  · obtain ⟨m, h, -⟩ := (hs.exact_ q.2).1 (List.mem_map_of_mem (f := fun q : Nat × Nat => q.2) hq)
    exact ⟨m, h⟩

theorem gem_eq (f : Num → Num) (z : Arr n) (mv : ℚ) : Corrector.gemOnGrib f z (.fin mv) = convertedField mv f z := by
  unfold Corrector.gemOnGrib convertedField
  congr 1
  funext i
  cases z.data i with
  | nan => rw [if_pos (by rfl), if_neg (fun h => by cases h)]
  | fin a =>
    by_cases h : a = mv
    · subst h
      rw [if_pos rfl, if_neg (by simp [Num.neb])]
    · rw [if_neg (fun h' => h (Num.fin.inj h')), if_pos (by simpa [Num.neb] using h)]

/-- The field read from a geopotential file: that of a message with the smallest end step. -/
theorem geo_read (file : List (GMsg (Arr n))) (idx : Bool) (mv : ℚ) (hg : GeoFile file mv) :
    ∃ m ∈ file, geopotential m = true ∧ (∀ m' ∈ file, geopotential m' = true → m.endStep ≤ m'.endStep) ∧
      ∀ (f : Num → Num) (t : Table k) (mvOut : Num), Fits t n → readGeo file idx f t mvOut =
        .ok (.fin mv, Arr.plain (cellOf t mvOut (convertedField mv f m.values))) := by
  have hsrc : (∃ b, (Reader.init idx false ⟨0, [], [], false⟩).src = .index b) ∨
      (Reader.init idx false ⟨0, [], [], false⟩).src = .file 0 := by
    unfold Reader.init
    cases idx with
    | true => left; exact ⟨false, rfl⟩
    | false => right; rfl
  obtain ⟨g, r', hgids, hperm, hin⟩ := geo_found file _ hsrc
  have hmem : ∀ m, m ∈ (msgsOf file g).map (·.2) ↔ m ∈ file ∧ geopotential m = true := fun m => by
    rw [hperm.mem_iff, List.mem_filter]
  obtain ⟨m0, hm0, hn0⟩ := hg.some_
  have hgne : g ≠ [] := by
    rintro rfl
    have := (hmem m0).2 ⟨hm0, hn0⟩
    cases this
  have hsel : ∃ r2, Reader.select file (Reader.init idx false ⟨0, [], [], false⟩) geoCmd =
      (.ok (group r'.stepGrib r'.stepGrib2 r'.changeStepAt r'.ext (msgsOf file g)).1, r2) := by
    unfold Reader.select
    rw [hgids]
    dsimp only
    rw [if_pos (List.length_pos_iff.2 hgne)]
    exact ⟨_, rfl⟩
  obtain ⟨r2, hsel⟩ := hsel
  have hmv : ((g.head?.bind fun p => file[p.2]?).map GMsg.missingValue).getD .nan = .fin mv := by
    cases hgl : g with
    | nil => exact absurd hgl hgne
    | cons q g' =>
      rw [List.head?_cons, Option.bind_some]
      obtain ⟨m, hm⟩ := hin q (by rw [hgl]; exact List.mem_cons_self ..)
      rw [hm]
      have : m ∈ (msgsOf file g).map (·.2) := by
        rw [msgsOf_map, List.mem_filterMap]
        exact ⟨q.2, List.mem_map_of_mem (f := fun q : Nat × Nat => q.2) (by rw [hgl]; exact List.mem_cons_self ..), hm⟩
      exact hg.missing m ((hmem m).1 this).1 ((hmem m).1 this).2
  have htime : ∃ q, FileIn.firstTime file (Reader.init idx false ⟨0, [], [], false⟩) geoCmd = .ok q := by
    have hmne : msgsOf file g ≠ [] := by
      intro h
      have := (hmem m0).2 ⟨hm0, hn0⟩
      rw [h] at this
      cases this
    obtain ⟨m, hm, hfm⟩ := firstMsg_taken (l := (msgsOf file g).map (·.2)) hgids hmne hin fun q hq =>
      List.mem_map_of_mem (f := fun q : Nat × GMsg (Arr n) => q.2) hq
    obtain ⟨q, hq⟩ := Option.isSome_iff_exists.1 (hg.dated m ((hmem m).1 hm).1 ((hmem m).1 hm).2)
    unfold FileIn.firstTime
    rw [hfm]
    exact ⟨q, reference_eq hq⟩
  obtain ⟨qt, htime⟩ := htime
  cases hL : msgsOf file g with
  | nil =>
    rw [hL] at hmem
    have := (hmem m0).2 ⟨hm0, hn0⟩
    cases this
  | cons q0 rest =>
    rw [hL] at hmem hperm hsel
    obtain ⟨nj, hnj⟩ := hg.grid
    have hnj' : ∀ q ∈ q0 :: rest, q.2.nj = nj := fun q hq => by
      have := (hmem q.2).1 (List.mem_map_of_mem (f := fun q : Nat × GMsg (Arr n) => q.2) hq)
      exact hnj _ this.1 this.2
    have hd : (q0 :: rest).Pairwise fun x y => Spec.Differ x.2 y.2 := by
      have : ((q0 :: rest).map (·.2)).Pairwise Spec.Differ := by
        refine (hperm.symm.pairwise_iff ?_).1 hg.differ
        intro x y h h'
        exact h ⟨h'.1.symm, h'.2.1.symm, h'.2.2.1.symm, h'.2.2.2.symm⟩
      rwa [List.pairwise_map] at this
    obtain ⟨h2, h3, h4⟩ := group_one r'.stepGrib r'.stepGrib2 r'.changeStepAt r'.ext q0 rest
      (fun q hq => (hnj' q hq).trans (hnj' q0 (by simp)).symm) hd
    generalize hs : (group r'.stepGrib r'.stepGrib2 r'.changeStepAt r'.ext (q0 :: rest)).1 = s at hsel h2 h3 h4
    have hentry : ∀ e ∈ s.first, ∃ m, m ∈ file ∧ geopotential m = true ∧ m.endStep = e.1.endStep ∧ m.values = e.2 := by
      intro e he
      have : (e.1.startStep, e.1.endStep, e.1.resolution, e.1.level, e.2) ∈
          (q0 :: rest).map fun p => (p.2.startStep, p.2.endStep, p.2.nj, p.2.level, p.2.values) := by
        rw [← h4]
        exact List.mem_map.2 ⟨e, he, rfl⟩
      obtain ⟨q, hq, h⟩ := List.mem_map.1 this
      simp only [Prod.mk.injEq] at h
      have hm := (hmem q.2).1 (List.mem_map_of_mem (f := fun q : Nat × GMsg (Arr n) => q.2) hq)
      exact ⟨q.2, hm.1, hm.2, h.2.1, h.2.2.2.2⟩
    have hall : ∀ m ∈ file, geopotential m = true → ∃ e ∈ s.first, e.1.endStep = m.endStep := by
      intro m hm hgm
      obtain ⟨q, hq, rfl⟩ := List.mem_map.1 ((hmem m).2 ⟨hm, hgm⟩)
      have : (q.2.startStep, q.2.endStep, q.2.nj, q.2.level, q.2.values) ∈
          s.first.map fun p => (p.1.startStep, p.1.endStep, p.1.resolution, p.1.level, p.2) := by
        rw [h4]
        exact List.mem_map.2 ⟨q, hq, rfl⟩
      obtain ⟨e, he, h⟩ := List.mem_map.1 this
      simp only [Prod.mk.injEq] at h
      exact ⟨e, he, h.2.1⟩
    cases hS : sortedBy Step.endStep (Dict.keys s.first) with
    | nil =>
      obtain ⟨e, he, -⟩ := hall m0 hm0 hn0
      have := (sortedBy_perm Step.endStep (Dict.keys s.first)).mem_iff.2
        (List.mem_map_of_mem (f := Prod.fst) he)
      rw [hS] at this
      cases this
    | cons k0 ks =>
      have hsp := sortedBy_perm Step.endStep (Dict.keys s.first)
      have hpw := sortedBy_pairwise Step.endStep (Dict.keys s.first)
      rw [hS] at hsp hpw
      have hk0 : k0 ∈ Dict.keys s.first := hsp.mem_iff.1 (List.mem_cons_self ..)
      have hmin : ∀ e ∈ s.first, k0.endStep ≤ e.1.endStep := by
        intro e he
        rcases List.mem_cons.1 (hsp.mem_iff.2 (List.mem_map_of_mem (f := Prod.fst) he)) with h | h
        · rw [h]
        · exact (List.pairwise_cons.1 hpw).1 _ h
      obtain ⟨z, hz⟩ : ∃ z, Dict.get? s.first k0 = some z := by
        cases h : Dict.get? s.first k0 with
        | some z => exact ⟨z, rfl⟩
        | none => exact absurd hk0 (Dict.get?_eq_none_iff.1 h)
      obtain ⟨m, hm, hgm, hme, hmz⟩ := hentry (k0, z) (Dict.mem_of_get? hz)
      refine ⟨m, hm, hgm, fun m' hm' hg' => ?_, fun f t mvOut hfit => ?_⟩
      · obtain ⟨e, he, hee⟩ := hall m' hm' hg'
        rw [hme, ← hee]
        exact hmin e he
      · unfold readGeo
        dsimp only
        rw [hgids, hsel]
        dsimp only
        rw [htime]
        dsimp only
        rw [hmv]
        have hinit : (MsgSet.init s.first (.fin mv) ⟨[], 0, none⟩ s.second : Py (MsgSet n n)) =
            .ok ⟨s.first, s.second, .fin mv, ⟨[], 0, none⟩, k0⟩ := by
          unfold MsgSet.init
          rw [hS]
          rfl
        rw [hinit]
        dsimp only
        rw [hz]
        dsimp only
        rw [gem_eq, interpolate_eq t mvOut _ hfit, hmz]
        rfl

/-- Does the program take the input file for the geopotential? -/
theorem own_geo (x : FileIn n k) (o : GeoIn n k) (hidx : x.indexable = true) (hp : x.sel.perturbation ≠ some (-1)) :
    (OwnGeo x.file x.sel → x.ownGeo o = some o.inputPath) ∧ (¬ OwnGeo x.file x.sel → x.ownGeo o = none) := by
  have hsrc0 : x.reader.src = .index x.sel.perturbation.isSome := by
    unfold FileIn.reader Reader.init
    rw [hidx]
    rfl
  have hsrc := gribInfo_src x.file x.reader (infoCmd x.sel) _ hsrc0
  have hpert : ∀ m : GMsg (Arr n), (decide (pertOf (infoCmd x.sel) = -1) ||
      decide (Dict.get? m.other "perturbationNumber".toList = some (.int (pertOf (infoCmd x.sel))))) =
      asked x.sel.perturbation (Dict.get? m.other "perturbationNumber".toList) := by
    intro m
    cases hq : x.sel.perturbation with
    | none =>
      have : pertOf (infoCmd x.sel) = -1 := by unfold infoCmd pertOf; rw [hq]; rfl
      rw [this]
      rfl
    | some z =>
      have hz : pertOf (infoCmd x.sel) = z := by unfold infoCmd pertOf; rw [hq]; rfl
      have hz1 : z ≠ -1 := fun h => hp (by rw [hq, h])
      rw [hz, decide_eq_false hz1, Bool.false_or]
      rfl
  have hiff : (hasGeopotential x.file (gribInfo x.file x.reader (infoCmd x.sel)).2 (infoCmd x.sel)).1 = true ↔
      OwnGeo x.file x.sel := by
    unfold hasGeopotential
    dsimp only
    rw [hsrc]
    unfold visited
    dsimp only
    rw [Bool.not_eq_true', List.isEmpty_eq_false_iff_exists_mem]
    constructor
    · rintro ⟨i, hi⟩
      obtain ⟨v, hv, hi⟩ := List.mem_flatMap.1 hi
      have hi := (List.mem_filter.1 hi).2
      cases hm : x.file[i]? with
      | none => rw [hm] at hi; cases hi
      | some m =>
        rw [hm] at hi
        dsimp only at hi
        rw [hpert m, Bool.and_eq_true, decide_eq_true_iff] at hi
        exact ⟨m, List.mem_of_getElem? hm, (geopotential_mem m).2 (hi.1 ▸ hv), hi.2⟩
    · rintro ⟨m, hm, hg, ha⟩
      obtain ⟨i, hi⟩ := List.mem_iff_getElem?.1 hm
      refine ⟨i, List.mem_flatMap.2 ⟨m.shortName, (geopotential_mem m).1 hg, List.mem_filter.2 ⟨?_, ?_⟩⟩⟩
      · exact List.mem_range.2 (List.getElem?_eq_some_iff.1 hi).1
      · rw [hi]
        dsimp only
        rw [hpert m, ha, Bool.and_true, decide_eq_true_iff]
  unfold FileIn.ownGeo
  dsimp only
  constructor
  · intro h; rw [if_pos (hiff.2 h)]
  · intro h; rw [if_neg (fun h' => h (hiff.1 h'))]

/-- **C133** (input file). If the input holds a geopotential message, the surface heights of every grid of the run are
made from one field of the input file: that of a geopotential message with the smallest end step, at whatever level. -/
theorem own_heights (x : FileIn n k) (o : GeoIn n k) (hidx : x.indexable = true) (hp : x.sel.perturbation ≠ some (-1))
    (hown : OwnGeo x.file x.sel) (hpath : o.inputPath ≠ []) (hcont : o.contents o.inputPath = (x.file, true))
    (mv : ℚ) (hgeo : GeoFile x.file mv) :
    ∃ m ∈ x.file, geopotential m = true ∧ (∀ m' ∈ x.file, geopotential m' = true → m.endStep ≤ m'.endStep) ∧
      ∀ (id : Str) (t : Table k), Fits t n → x.heightFor o id t = .ok ⟨o.formula, o.dem,
        Arr.plain (cellOf t x.mvOut (convertedField mv o.gemFormula m.values)), o.demMv, .fin mv⟩ := by
  obtain ⟨m, hm, hgm, hmin, hread⟩ := geo_read (k := k) x.file true mv hgeo
  refine ⟨m, hm, hgm, hmin, fun id t hfit => ?_⟩
  unfold FileIn.heightFor
  rw [(own_geo x o hidx hp).1 hown]
  have : geoFile o.isFile o.vars (some o.inputPath) o.folders id = .ok o.inputPath := by
    unfold geoFile
    rw [if_pos (by unfold given; simpa using hpath)]
    rfl
  rw [this]
  dsimp only
  rw [hcont]
  dsimp only
  rw [hread _ _ _ hfit]

/-- **C133** (configured files). If the input holds none, the surface heights of a grid are made from the file
registered for its identifier, from a message with the smallest end step; without such a file there is error 4000 or
4200 (see `geopotential_lookup`). -/
theorem registered_heights (x : FileIn n k) (o : GeoIn n k) (hidx : x.indexable = true)
    (hp : x.sel.perturbation ≠ some (-1)) (hown : ¬ OwnGeo x.file x.sel) (id : Str) :
    (∀ p mv, geoFile o.isFile o.vars none o.folders id = .ok p → GeoFile (o.contents p).1 mv →
      ∃ m ∈ (o.contents p).1, geopotential m = true ∧
        (∀ m' ∈ (o.contents p).1, geopotential m' = true → m.endStep ≤ m'.endStep) ∧
        ∀ t : Table k, Fits t n → x.heightFor o id t = .ok ⟨o.formula, o.dem,
          Arr.plain (cellOf t x.mvOut (convertedField mv o.gemFormula m.values)), o.demMv, .fin mv⟩) ∧
    ∀ e, geoFile o.isFile o.vars none o.folders id = .error e → ∀ t, x.heightFor o id t = .error e := by
  refine ⟨fun p mv hf hgeo => ?_, fun e he t => ?_⟩
  · obtain ⟨m, hm, hgm, hmin, hread⟩ := geo_read (k := k) (o.contents p).1 (o.contents p).2 mv hgeo
    refine ⟨m, hm, hgm, hmin, fun t hfit => ?_⟩
    unfold FileIn.heightFor
    rw [(own_geo x o hidx hp).2 hown, hf]
    dsimp only
    rw [hread _ _ _ hfit]
  · unfold FileIn.heightFor
    rw [(own_geo x o hidx hp).2 hown, he]

namespace Spec

/-- The messages of the file the surface heights of the grid `id` come from: the input file if it holds a geopotential, else the file
configured for the grid. -/
def HeightSource (x : FileIn n k) (o : GeoIn n k) (id : Str) (msgs : List (GMsg (Arr n))) : Prop :=
  (OwnGeo x.file x.sel ∧ o.inputPath ≠ [] ∧ o.contents o.inputPath = (x.file, true) ∧ msgs = x.file) ∨
  (¬ OwnGeo x.file x.sel ∧ ∃ p, geoFile o.isFile o.vars none o.folders id = .ok p ∧ msgs = (o.contents p).1)

/-- What correction makes of value `v` with target height `d` and surface height `g`. -/
def correctedValue (formula : NumExpr3) (demMv geoMv : ℚ) (d v g : Num) : Num :=
  if d ≠ .fin demMv ∧ v ≠ .fin (9969209968386869 * 10 ^ 21) ∧ g ≠ .fin geoMv then formula d v g
  else .fin (9969209968386869 * 10 ^ 21)

end Spec

theorem height_of (x : FileIn n k) (o : GeoIn n k) (hidx : x.indexable = true) (hp : x.sel.perturbation ≠ some (-1))
    (id : Str) (t : Table k) (hfit : Fits t n) (G : List (GMsg (Arr n))) (hG : HeightSource x o id G) (mv : ℚ)
    (hgeo : GeoFile G mv) :
    ∃ g ∈ G, geopotential g = true ∧ (∀ m' ∈ G, geopotential m' = true → g.endStep ≤ m'.endStep) ∧
      x.heightFor o id t = .ok ⟨o.formula, o.dem,
        Arr.plain (cellOf t x.mvOut (convertedField mv o.gemFormula g.values)), o.demMv, .fin mv⟩ := by
  rcases hG with ⟨h1, h2, h3, rfl⟩ | ⟨h1, p, h2, rfl⟩
  · obtain ⟨m, a, b, c, d⟩ := own_heights x o hidx hp h1 h2 h3 mv hgeo
    exact ⟨m, a, b, c, d id t hfit⟩
  · obtain ⟨m, a, b, c, d⟩ := (registered_heights x o hidx hp h1 id).1 p mv h2 hgeo
    exact ⟨m, a, b, c, d t hfit⟩

theorem neb_fin (v : Num) (q : ℚ) : v.neb (.fin q) = true ↔ v ≠ .fin q := by
  cases v with
  | nan => exact ⟨fun _ h => (by cases h), fun _ => rfl⟩
  | fin a => simp [Num.neb]

/-- **C134.** A run without aggregation and with correction on a GRIB file: one file per message taken (see
`file_plain_run`), in the order of the end steps; in every cell the formula of the target height, of the interpolated
converted value, and of the surface height, which is interpolated with the same table from the converted field of one
geopotential message `g`, the same for all maps. `g` has the smallest end step of the geopotential messages of the
input file, or, if it has none, of the file configured for the grid. -/
theorem corrected_file_run (ne : NumExpr) (x : FileIn n k) (o : GeoIn n k) (f : Num → Num) (mv : ℚ)
    (hidx : x.indexable = true) (hp : x.sel.perturbation ≠ some (-1))
    (hup : x.sel.shortName.map Char.toUpper ≠ x.sel.shortName) (hagg : x.aggr = none)
    (E : Int) (hE : LastStep x.file x.sel E) (sel : List (GMsg (Arr n)))
    (hsel : sel = taken x.file x.sel (x.tstart.getD 0) (windowEnd x.tend E)) (hne : sel ≠ [])
    (nj : Int) (hnj : ∀ m ∈ sel, m.nj = nj) (hdiff : sel.Pairwise Spec.Differ)
    (hmv : ∀ m ∈ sel, m.missingValue = .fin mv) (hdate : ∀ m ∈ sel, (reference m).isSome = true)
    (hconv : Means ne x.conversion f) (hfit : Fits x.table n)
    (G : List (GMsg (Arr n))) (hG : HeightSource x o x.gridId G) (geoMv : ℚ) (hgeo : GeoFile G geoMv) (demMv : ℚ)
    (hdem : o.demMv = .fin demMv) :
    ∃ g ∈ G, geopotential g = true ∧ (∀ m' ∈ G, geopotential m' = true → g.endStep ≤ m'.endStep) ∧
    ∃ (x' : FileIn n k) (ord : List (GMsg (Arr n))) (files : List (Str × (Fin k → Num))),
      x.withHeights o = .ok x' ∧ ord.Perm sel ∧ ord.Pairwise (fun a b => a.endStep ≤ b.endStep) ∧
      x'.pcraster ne = .ok files ∧ files.length = ord.length ∧
      ∀ (j : Nat) m, ord[j]? = some m →
        files[j]? = some (pcrName x.namePrefix x.fmap x.ext (j + 1), fun c => shown x.mask x.mvClone
          (correctedValue o.formula demMv geoMv (o.dem.data c)
            (cellOf x.table x.mvOut
              (Spec.cutField (x.conversion.isSome && x.cutOff) (convertedField mv f m.values)) c)
            (cellOf x.table x.mvOut (convertedField geoMv o.gemFormula g.values) c)) c) := by
  obtain ⟨g, hg, hgg, hgmin, hh⟩ := height_of x o hidx hp x.gridId x.table hfit G hG geoMv hgeo
  refine ⟨g, hg, hgg, hgmin, ?_⟩
  set h : Height k := ⟨o.formula, o.dem,
    Arr.plain (cellOf x.table x.mvOut (convertedField geoMv o.gemFormula g.values)), o.demMv, .fin geoMv⟩ with hhdef
  obtain ⟨ord, files, h1, h2, h3, h4, h5⟩ := file_plain_run ne
    { x with height := some h, height2 := (x.heightFor o x.gridId2 x.table2).toOption } f mv hidx hup hagg E hE sel hsel
    hne nj hnj hdiff hmv hdate hconv hfit
  refine ⟨_, ord, files, by unfold FileIn.withHeights; rw [hh], h1, h2, h3, h4, fun j m hj => ?_⟩
  rw [h5 j m hj]
  congr 2
  funext c
  congr 1
  unfold finalCell correctedValue
  dsimp only
  rw [hhdef]
  dsimp only
  simp only [hdem, neb_fin]
  rfl

namespace Demo

/-- A surface geopotential file: two points, heights 100 and 200 m (times 10). -/
def surface : List (GMsg (Arr 2)) := [fmsg "z" 0 0 1000 2000]

/-- An input with temperatures and the geopotential of a pressure level. -/
def withLevel : List (GMsg (Arr 2)) :=
  [fmsg "2t" 0 6 280 281, { fmsg "z" 6 6 55000 56000 with level := 500 }, fmsg "2t" 6 12 282 283]

def tempIn (file : List (GMsg (Arr 2))) : FileIn 2 1 :=
  { fileIn none none none true with file := file, sel := ⟨"2t".toList, none, none, none, none⟩, gridId := "g".toList }

/-- Corrected value: target height minus surface height plus value; height: geopotential over 10. -/
def geoIn (file : List (GMsg (Arr 2))) : GeoIn 2 1 where
  inputPath := "in.grb".toList
  isFile p := decide (p = "/geo/s.grb".toList)
  vars := [("g".toList, "s.grb".toList)]
  folders := [none, some "/geo/".toList, none]
  contents p := if p = "in.grb".toList then (file, true) else (surface, true)
  formula d p g := d - g + p
  gemFormula z := z * .fin (1 / 10)
  dem := .plain fun _ => .fin 250
  demMv := .fin (-1)

def plainTemp : List (GMsg (Arr 2)) := [fmsg "2t" 0 6 280 281, fmsg "2t" 6 12 282 283]

theorem temp_last : LastStep plainTemp (tempIn plainTemp).sel 12 := by
  constructor
  · exact ⟨fmsg "2t" 6 12 282 283, by unfold plainTemp; simp, by decide +kernel, rfl⟩
  · decide +kernel

theorem surface_geo : GeoFile surface (-9999) where
  some_ := ⟨_, List.mem_singleton.2 rfl, by decide +kernel⟩
  grid := ⟨10, by decide +kernel⟩
  differ := by
    have : surface.filter geopotential = surface := by rfl
    rw [this]
    exact List.pairwise_singleton _ _
  missing := by decide +kernel
  dated := by decide +kernel

theorem level_geo : GeoFile withLevel (-9999) where
  some_ := ⟨{ fmsg "z" 6 6 55000 56000 with level := 500 }, by unfold withLevel; simp, by decide +kernel⟩
  grid := ⟨10, by decide +kernel⟩
  differ := by
    have : withLevel.filter geopotential = [{ fmsg "z" 6 6 55000 56000 with level := 500 }] := by rfl
    rw [this]
    exact List.pairwise_singleton _ _
  missing := by decide +kernel
  dated := by decide +kernel

theorem plain_source : HeightSource (tempIn plainTemp) (geoIn plainTemp) "g".toList surface := by
  refine Or.inr ⟨?_, "/geo/s.grb".toList, by decide +kernel, by rfl⟩
  unfold OwnGeo
  have : ∀ m ∈ plainTemp, geopotential m = false := by decide +kernel
  rintro ⟨m, hm, h, -⟩
  rw [this m hm] at h
  cases h

/-- C134 on the configured file: 250 - 200 + 281 = 331 and 333. -/
example : ∃ x' files, (tempIn plainTemp).withHeights (geoIn plainTemp) = .ok x' ∧
    x'.pcraster (fun _ => none) = .ok files ∧ files.map (fun p => p.2 0) = [.fin 331, .fin 333] := by
  obtain ⟨g, hg, -, -, x', ord, files, h1, h2, h3, h4, h5, h6⟩ := corrected_file_run (fun _ => none) (tempIn plainTemp)
    (geoIn plainTemp) id (-9999) rfl (fun h => by cases h) (by decide +kernel) rfl 12 temp_last _ rfl
    (fun h => absurd (congrArg List.length h) (by decide +kernel)) 10 (by decide +kernel)
    (differ_of_ends (by decide +kernel)) (by decide +kernel) (by decide +kernel) (.inl ⟨.inl rfl, rfl⟩) (fun _ => Nat.le_succ 1) surface
    plain_source (-9999) surface_geo (-1) rfl
  refine ⟨x', files, h1, h4, ?_⟩
  have : ((tempIn plainTemp).withHeights (geoIn plainTemp)).bind (fun x => x.pcraster (fun _ => none)) =
      .ok [(pcrName "tp".toList 1 1 1, fun _ => .fin 331), (pcrName "tp".toList 1 1 2, fun _ => .fin 333)] := by
    decide +kernel
  rw [h1] at this
  have h4' : (Except.ok x' : Py (FileIn 2 1)).bind (fun x => x.pcraster (fun _ => none)) = .ok files := h4
  rw [h4'] at this
  injection this with this
  rw [this]
  rfl

theorem level_own : OwnGeo withLevel (tempIn withLevel).sel :=
  ⟨{ fmsg "z" 6 6 55000 56000 with level := 500 }, by unfold withLevel; simp, by decide +kernel, by decide +kernel⟩

/-- C133 on an input with its own geopotential. -/
example : ∃ m ∈ withLevel, geopotential m = true ∧
    (∀ m' ∈ withLevel, geopotential m' = true → m.endStep ≤ m'.endStep) ∧
    ∀ (id : Str) (t : Table 1), Fits t 2 → (tempIn withLevel).heightFor (geoIn withLevel) id t =
      .ok ⟨(geoIn withLevel).formula, (geoIn withLevel).dem,
        Arr.plain (cellOf t (.fin (-1)) (convertedField (-9999) (geoIn withLevel).gemFormula m.values)), .fin (-1), .fin (-9999)⟩ :=
  own_heights (tempIn withLevel) (geoIn withLevel) rfl (fun h => by cases h) level_own (by decide +kernel) (by rfl) (-9999)
    level_geo

end Demo

/-- C133 fails: the user expects surface heights, but the geopotential of a pressure level in the input (here 500 hPa,
5600 m) is used for them although the surface geopotential of the grid is configured; the same temperatures are
written as 331 and 333 without that message, and as -5069 and -5067 with it. -/
theorem level_used :
    ((Demo.tempIn Demo.plainTemp).withHeights (Demo.geoIn Demo.plainTemp)).bind (fun x => x.pcraster fun _ => none) =
      .ok [(pcrName "tp".toList 1 1 1, fun _ => .fin 331), (pcrName "tp".toList 1 1 2, fun _ => .fin 333)] ∧
    ((Demo.tempIn Demo.withLevel).withHeights (Demo.geoIn Demo.withLevel)).bind (fun x => x.pcraster fun _ => none) =
      .ok [(pcrName "tp".toList 1 1 1, fun _ => .fin (-5069)), (pcrName "tp".toList 1 1 2, fun _ => .fin (-5067))] := by
  constructor <;> decide +kernel

end PyG2P
