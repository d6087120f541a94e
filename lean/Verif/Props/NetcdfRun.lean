import Verif.Model.NetcdfRun
import Verif.Props.FileRun
import Verif.Props.PipelineMissing
import Verif.Props.Controller

/-! # C149–C151 — from the GRIB file to the netCDF data set -/

namespace PyG2P
open Spec TableApply Converter Aggregator Reader
variable {n k : Nat} {α : Type}

namespace Spec

/-- The number an option says; `true` and `false` are 1 and 0. -/
def Says (float : Str → Option ℚ) (v : JVal) (q : ℚ) : Prop :=
  (∃ z : Int, v = .int z ∧ q = z) ∨ v = .num q ∨ (∃ t, v = .str t ∧ float t = some q) ∨
    (v = .bool true ∧ q = 1) ∨ (v = .bool false ∧ q = 0)

/-- A limit that may be left out. -/
def SaysLimit (float : Str → Option ℚ) (v : JVal) (l : Option ℚ) : Prop :=
  (v = .null ∧ l = none) ∨ (v ≠ .null ∧ ∃ q, Says float v q ∧ l = some q)

/-- Names of the value formats. -/
def formatName : ValueFormat → String
  | .i1 => "i1" | .i2 => "i2" | .i4 => "i4" | .f8 => "f8"

/-- What the options of a data set mean. -/
structure NcMeans (o : NcOut) (fmt : ValueFormat) (sc off : ℚ) (min max : Option ℚ) : Prop where
  format : (o.valueFormat = .null ∧ fmt = .f8) ∨ o.valueFormat = .str (formatName fmt).toList
  scale : Says o.float o.scaleFactor sc
  nonzero : sc ≠ 0
  offset : Says o.float o.offset off
  lo : SaysLimit o.float o.validMin min
  hi : SaysLimit o.float o.validMax max

/-- The step unit asked for. -/
def unitAsked (v : JVal) (u : Option Str) : Prop :=
  (v = .null ∧ u = none) ∨ ∃ t, v = .str t ∧ u = some t

/-- The time axis `tv` for steps `times` of unit `grib` (see C51): the same instants; in the GRIB unit, or in the unit
asked for if both have a fixed length. -/
def TimesIn (grib : Str) (asked : Option Str) (times : List Int) (tv : TimeVar) : Prop :=
  ∃ name, (grib, name) ∈ gribUnits ∧ tv.values.length = times.length ∧
    (∀ sec, gribSeconds grib = some sec → ∃ sec', writtenSeconds tv.unit = some sec' ∧ 0 < sec' ∧
      tv.values.map (· * sec') = times.map fun t : Int => (t : ℚ) * sec) ∧
    (tv.int = true ↔ ∀ v ∈ tv.values, ∃ z : Int, v = z) ∧
    (((asked = none ∨ asked = some grib) ∨
      (∃ out, asked = some out ∧ ((∀ n, (out, n) ∉ gribUnits) ∨ gribSeconds out = none ∨
        gribSeconds grib = none))) → tv.unit = name ∧ tv.values = times.map fun t : Int => (t : ℚ)) ∧
    (∀ out oname so sg, asked = some out → (out, oname) ∈ gribUnits → gribSeconds out = some so →
      gribSeconds grib = some sg → tv.unit = oname)

/-- What a CF reader makes of a cell stored in a data set. -/
def sees (d : Dataset k) (x : ℚ) : Option ℚ :=
  if x = noData d.format ∨ (∃ l ∈ d.validMin, x < l) ∨ (∃ l ∈ d.validMax, l < x) then none
  else some (x * d.scale + d.offset)

/-- The stored cell `x` shows the value `V`; `gone`: the cell is to be missing. -/
def Shows (d : Dataset k) (lo hi : Option ℚ) (gone : Prop) (V : Num) (x : ℚ) : Prop :=
  (gone ∨ V = .nan → sees d x = none) ∧
  ∀ v, ¬ gone → V = .fin v → Storable d.format ((v - d.offset) / d.scale) →
    (d.format = .f8 → (0 < d.scale ∨ lo = none ∧ hi = none) →
      sees d x = if (∃ l ∈ lo, v < l) ∨ (∃ h ∈ hi, h < v) then none else some v) ∧
    (d.format ≠ .f8 → lo = none → hi = none →
      ∃ w, sees d x = some w ∧ |w - v| ≤ |d.scale| / 2)

/-- The attributes of the data set of a command. -/
structure Describes (d : Dataset k) (o : NcOut) (name : Str) (ref : Int × Nat) (fmt : ValueFormat) (sc off : ℚ)
    (lo hi : Option ℚ) : Prop where
  path : d.path = o.path
  varName : d.varName = name
  longName : d.longName = o.longName
  unit : d.unit = o.unit
  since : d.since = ref
  format : d.format = fmt
  scale : d.scale = sc
  offset : d.offset = off
  validMin : d.validMin = lo.map fun l => (l - off) / sc
  validMax : d.validMax = hi.map fun l => (l - off) / sc

end Spec

/-! ## Options -/

theorem number_says {float : Str → Option ℚ} {v : JVal} {q : ℚ} (h : Says float v q) : NcOut.number float v = .ok q := by
  rcases h with ⟨z, rfl, rfl⟩ | rfl | ⟨t, rfl, ht⟩ | ⟨rfl, rfl⟩ | ⟨rfl, rfl⟩
  · rfl
  · rfl
  · show (match float t with | none => _ | some q => _) = _
    rw [ht]
  · rfl
  · rfl

theorem limit_says {float : Str → Option ℚ} {v : JVal} {l : Option ℚ} (h : SaysLimit float v l) (scale offset : ℚ) :
    NcOut.limit float scale offset v = .ok (l.map fun q => (q - offset) / scale) := by
  unfold NcOut.limit
  rcases h with ⟨rfl, rfl⟩ | ⟨h0, q, hq, rfl⟩
  · rfl
  · rw [if_neg h0, number_says hq]
    rfl

theorem format_says {v : JVal} {fmt : ValueFormat} (h : (v = .null ∧ fmt = .f8) ∨ v = .str (formatName fmt).toList) :
    NcOut.format v = .ok (some fmt) := by
  rcases h with ⟨rfl, rfl⟩ | rfl
  · rfl
  · cases fmt <;> decide +kernel

theorem requested_eq {v : JVal} {u : Option Str} (h : unitAsked v u) : NcOut.requested v = u := by
  rcases h with ⟨rfl, rfl⟩ | ⟨t, rfl, rfl⟩ <;> rfl

/-! ## Cells -/

theorem mapM_some_ok {α β : Type} (f : α → Py β) (l : List α) (h : ∀ a ∈ l, ∃ b, f a = .ok b) :
    ∃ r, l.mapM f = .ok r := by
  induction l with
  | nil => exact ⟨[], rfl⟩
  | cons a l ih =>
    obtain ⟨b, hb⟩ := h a List.mem_cons_self
    obtain ⟨r, hr⟩ := ih fun x hx => h x (List.mem_cons_of_mem _ hx)
    exact ⟨b :: r, by rw [List.mapM_cons, hb, hr]; rfl⟩

/-- A stored cell shows its value. -/
theorem shows_stored {d : Dataset k} {lo hi : Option ℚ} (over : Int → ℚ) (hs : d.scale ≠ 0)
    (hlo : d.validMin = lo.map fun l => (l - d.offset) / d.scale)
    (hhi : d.validMax = hi.map fun l => (l - d.offset) / d.scale) (mask : Option (Fin k → Bool)) (mvOut : Num) (a : Arr k)
    (ha : ∀ c, a.masked c = false) (rec : Fin k → ℚ)
    (h : ncWrite mask ⟨d.format, d.scale, d.offset, over⟩ (ncField mvOut a) = .ok rec) (c : Fin k) :
    Shows d lo hi (outside mask c = true ∨ a.data c = mvOut) (a.data c) (rec c) := by
  have hnc : ncField mvOut a c = if a.data c = mvOut then .nan else a.data c := by
    unfold ncField
    rw [ha c]
    by_cases h : a.data c = mvOut
    · simp [h]
    · simp [h]
  obtain ⟨w1, w2⟩ := ncWrite_stored (p := ⟨d.format, d.scale, d.offset, over⟩) hs h c
  rw [hnc] at w1 w2
  constructor
  · intro hg
    have : rec c = d.format.fill := by
      apply w1
      rcases hg with (h | h) | h
      · exact Or.inl h
      · exact Or.inr (if_pos h)
      · right
        rw [h]
        split <;> rfl
    unfold sees
    rw [noData_fill, if_pos (Or.inl this)]
  · intro v hg hv hold
    rw [not_or] at hg
    rw [if_neg hg.2] at w2
    have hrec := w2 v (by simpa using hg.1) hv
    refine ⟨fun h8 hsc => ?_, fun h8 hl hh => ?_⟩
    · have hnf := holds_f8 h8 hold hs
      have hp : rec c = (v - d.offset) / d.scale := by
        rw [hrec]
        unfold Packing.pack
        dsimp only
        rw [h8]
        rfl
      have hne : rec c ≠ d.format.fill := by
        rw [hp]
        intro he
        apply hnf
        rw [← he]
        field_simp
        ring
      have back : rec c * d.scale + d.offset = v := by
        rw [hp]
        field_simp
        ring
      have key : ((∃ l ∈ d.validMin, rec c < l) ∨ ∃ l ∈ d.validMax, l < rec c) ↔
          ((∃ l ∈ lo, v < l) ∨ ∃ h ∈ hi, h < v) := by
        rcases hsc with hsc | ⟨rfl, rfl⟩
        · refine or_congr ?_ ?_
          · rw [hlo]
            cases lo with
            | none => simp
            | some l =>
              simp only [Option.map_some, Option.mem_def, Option.some.injEq, exists_eq_left']
              rw [hp, div_lt_div_iff_of_pos_right hsc]
              constructor <;> intro h <;> linarith
          · rw [hhi]
            cases hi with
            | none => simp
            | some l =>
              simp only [Option.map_some, Option.mem_def, Option.some.injEq, exists_eq_left']
              rw [hp, div_lt_div_iff_of_pos_right hsc]
              constructor <;> intro h <;> linarith
        · rw [hlo, hhi]; simp
      unfold sees
      rw [noData_fill]
      by_cases hout : (∃ l ∈ lo, v < l) ∨ ∃ h ∈ hi, h < v
      · rw [if_pos hout, if_pos (Or.inr (key.2 hout))]
      · rw [if_neg hout, if_neg (by rintro (h | h); exacts [hne h, hout (key.1 h)]), back]
    · subst hl; subst hh
      obtain ⟨hr, hf⟩ := holds_int h8 hold
      obtain ⟨w, h1, h2⟩ := read_int ⟨d.format, d.scale, d.offset, over⟩ hs h8 v hr hf
      refine ⟨w, ?_, h2⟩
      rw [hrec, ← h1]
      unfold sees readCell
      rw [hlo, hhi]
      rfl

/-! ## Maps -/

/-- The run for a clone without missing cells whose missing value is NaN: its files hold the maps as they are. -/
def FileIn.bare (x : FileIn n k) : FileIn n k := { x with mask := none, mvClone := .nan }

theorem bare_settings (x : FileIn n k) : x.bare.settings =
    x.settings.map fun r => { r with mask := none, mvClone := .nan } := by
  unfold FileIn.settings
  have e1 : x.bare.reader = x.reader := rfl
  have e2 : x.bare.file = x.file := rfl
  have e3 : x.bare.sel = x.sel := rfl
  have e4 : x.bare.tstart = x.tstart := rfl
  have e5 : x.bare.tend = x.tend := rfl
  have e6 : x.bare.aggr = x.aggr := rfl
  rw [e1, e2, e3, e4, e5, e6]
  generalize Reader.gribInfo x.file x.reader (infoCmd x.sel) = g
  obtain ⟨i, r1⟩ := g
  cases i with
  | error e => rfl
  | ok info =>
    dsimp only
    generalize hkw : selectCmd x.sel (readerWindow x.tstart x.tend (x.aggr.map AggrOpts.step) info.step info.end_).1
      (readerWindow x.tstart x.tend (x.aggr.map AggrOpts.step) info.step info.end_).2 = kw
    generalize Reader.select x.file r1 kw = g
    obtain ⟨i, r2⟩ := g
    cases i with
    | error e => rfl
    | ok s =>
      dsimp only
      cases FileIn.firstTime x.file r1 kw with
      | error e => rfl
      | ok t =>
        dsimp only
        have e7 : x.bare.selectedMv r1 kw = x.selectedMv r1 kw := rfl
        have e8 : x.bare.grid s = x.grid s := rfl
        rw [e7, e8]
        cases (MsgSet.init s.first (x.selectedMv r1 kw) (x.grid s) s.second : Py (MsgSet n n)) with
        | error e => rfl
        | ok msgs => rfl

/-- The maps of a run are those in the files of the bare run. -/
theorem maps_of_bare {m : Nat} (ne : NumExpr) (r : RunIn n m k) (files : List (Str × (Fin k → Num)))
    (h : ({ r with mask := none, mvClone := .nan } : RunIn n m k).pcraster ne = .ok files) :
    ∃ (values : Dict Step (Field n m)) (change : Option Step) (ms : List (Int × Arr k)), r.fields ne = .ok (values, change) ∧ r.maps ne = .ok ms ∧ ms.length = files.length ∧
      ms.map (·.1) = values.map (fun e => e.1.endStep) ∧
      ∀ (j : Nat) q file, ms[j]? = some q → files[j]? = some file → ∀ c, q.2.masked c = false ∧ q.2.data c = file.2 c := by
  unfold RunIn.pcraster at h
  change (match r.fields ne with | .error e => _ | .ok (values, change) => _) = _ at h
  cases hf : r.fields ne with
  | error e => rw [hf] at h; cases h
  | ok vc =>
    obtain ⟨values, change⟩ := vc
    rw [hf] at h
    dsimp only at h
    change ((writePcraster r.namePrefix r.fmap r.ext (fun b f => (r.render b f).map (pcrWrite none .nan)) change
      values).mapM fun q => q.2.map fun c => (q.1, c)) = _ at h
    obtain ⟨l1, g1⟩ := mapM_get _ _ _ h
    have hfl : files.length = values.length := by
      rw [l1]
      unfold writePcraster
      simp only [List.length_map, List.length_zipIdx, gridLoop_length]
    have hr : ∀ (j : Nat) t v b file, (gridLoop change false values)[j]? = some (t, v, b) → files[j]? = some file →
        ∃ a, r.render b v = .ok a ∧ pcrWrite none .nan a = file.2 := by
      intro j t v b file hb hj
      have hw : (writePcraster r.namePrefix r.fmap r.ext (fun b f => (r.render b f).map (pcrWrite none .nan))
          change values)[j]? = some (pcrName r.namePrefix r.fmap r.ext ((1 + j : Nat) : Int),
            (r.render b v).map (pcrWrite none .nan)) := by
        unfold writePcraster
        rw [List.getElem?_map, List.getElem?_zipIdx, hb]
        rfl
      have := g1 j _ _ hw hj
      dsimp only at this
      cases ha : r.render b v with
      | error e => rw [ha] at this; cases this
      | ok a =>
        rw [ha] at this
        exact ⟨a, rfl, by rw [← Except.ok.inj this]⟩
    have hms : ∃ ms, r.maps ne = .ok ms := by
      unfold RunIn.maps
      rw [hf]
      dsimp only
      apply mapM_some_ok
      intro q hq
      obtain ⟨j, hj⟩ := List.mem_iff_getElem?.1 hq
      unfold writeNetcdf at hj
      rw [List.getElem?_map] at hj
      cases hb : (gridLoop change false values)[j]? with
      | none => rw [hb] at hj; cases hj
      | some e =>
        obtain ⟨t, v, b⟩ := e
        rw [hb] at hj
        have hlt : j < files.length := by
          rw [hfl, ← gridLoop_length change false values]
          exact (List.getElem?_eq_some_iff.1 hb).1
        obtain ⟨a, ha, -⟩ := hr j t v b _ hb (List.getElem?_eq_getElem hlt)
        rw [← Option.some.inj hj]
        exact ⟨(t.endStep, a), by dsimp only; rw [ha]; rfl⟩
    obtain ⟨ms, hms⟩ := hms
    obtain ⟨l2, g2⟩ := maps_get ne r ms values change hf hms
    refine ⟨values, change, ms, rfl, hms, l2.trans hfl.symm, ?_, ?_⟩
    · apply List.ext_getElem?
      intro j
      rw [List.getElem?_map, List.getElem?_map]
      cases hj : ms[j]? with
      | none =>
        have : values[j]? = none := by
          rw [List.getElem?_eq_none_iff] at hj ⊢
          omega
        rw [this]; rfl
      | some q =>
        obtain ⟨t, v, b, hv, -, ht, -⟩ := g2 j q hj
        rw [hv, Option.map_some, Option.map_some, ht]
    · intro j q file hq hj c
      obtain ⟨t, v, b, hv, hb, -, hrd⟩ := g2 j q hq
      obtain ⟨a, ha, hw⟩ := hr j t v b file hb hj
      rw [hrd] at ha
      have ha := Except.ok.inj ha
      have hm := render_unmasked r b v q.2 hrd c
      refine ⟨hm, ?_⟩
      rw [← hw, ← ha, pcrWrite_shown _ _ _ _ hm]
      unfold shown
      by_cases hn : outside none c = true ∨ q.2.data c = .nan
      · rw [if_pos hn]
        rcases hn with hn | hn
        · cases hn
        · exact hn
      · rw [if_neg hn]

/-- The data set made from the maps of a run. -/
theorem record_of_maps {m : Nat} (ne : NumExpr) (x : FileIn n k) (r : RunIn n m k) (o : NcOut) {fmt : ValueFormat}
    {scale offset : ℚ} {lo hi : Option ℚ} (ho : NcMeans o fmt scale offset lo hi) (hm : x.mask ≠ none)
    (hrx : r.mask = x.mask ∧ r.mvOut = x.mvOut) (files : List (Str × (Fin k → Num)))
    (hfiles : ({ r with mask := none, mvClone := .nan } : RunIn n m k).pcraster ne = .ok files) (hne : files ≠ [])
    (m0 : GMsg (Arr n)) (ref : Int × Nat) (href : reference m0 = some ref)
    (u : Str) (hu : m0.get? "stepUnits".toList = some (.str u)) (hk : ∃ name, (u, name) ∈ gribUnits)
    (req : Option Str) (hreq : unitAsked o.stepUnits req) :
    ∃ (d : Dataset k) (values : Dict Step (Field n m)) (change : Option Step) (ms : List (Int × Arr k)),
      r.fields ne = .ok (values, change) ∧ r.maps ne = .ok ms ∧ x.record o r m0 ms = .ok (some d) ∧
      Describes d o x.namePrefix ref fmt scale offset lo hi ∧
      TimesIn u req (values.map fun e => e.1.endStep) d.time ∧ d.records.length = files.length ∧
      values.length = files.length ∧
      ∀ (j : Nat) file rec, files[j]? = some file → d.records[j]? = some rec → ∀ c,
        Shows d lo hi (outside x.mask c = true ∨ file.2 c = x.mvOut) (file.2 c) (rec c) := by
  obtain ⟨values, change, ms, hf, hms, hl, htimes, hcell⟩ := maps_of_bare ne r files hfiles
  have hmsne : ms ≠ [] := by
    intro h
    rw [h] at hl
    exact hne (List.length_eq_zero_iff.1 hl.symm)
  obtain ⟨tv, htv⟩ := (time_axis u req (ms.map (·.1))).1.2 hk
  have hax := (time_axis u req (ms.map (·.1))).2 tv htv
  have hunit : m0.stepUnit = u := by
    unfold GMsg.stepUnit
    rw [hu]
  obtain ⟨recs, hrecs⟩ : ∃ recs, r.store ⟨fmt, scale, offset, o.overflow⟩ ms = .ok recs := by
    unfold RunIn.store
    rw [if_neg (by
      rw [Bool.and_eq_true, not_and_or]
      left
      rw [List.isEmpty_iff]
      exact hmsne)]
    apply mapM_some_ok
    intro q _
    obtain ⟨s, hs⟩ := ncWrite_ok_iff.2 (show r.mask ≠ none by rw [hrx.1]; exact hm)
    exact ⟨(q.1, s), by rw [hs]; rfl⟩
  obtain ⟨l2, g2⟩ := store_get r _ ms recs hrecs
  refine ⟨⟨o.path, x.namePrefix, o.longName, o.unit, tv, ref, fmt, scale, offset,
      lo.map (fun l => (l - offset) / scale), hi.map (fun l => (l - offset) / scale), recs.map (·.2)⟩,
    values, change, ms, hf, hms, ?_,
    ⟨rfl, rfl, rfl, rfl, rfl, rfl, rfl, rfl, rfl, rfl⟩, ?_, ?_, ?_, ?_⟩
  · unfold FileIn.record
    rw [hunit, requested_eq hreq, htv]
    dsimp only
    rw [format_says ho.format]
    dsimp only
    rw [number_says ho.scale]
    simp only [ok_bind]
    rw [number_says ho.offset]
    simp only [ok_bind]
    rw [limit_says ho.lo]
    simp only [ok_bind]
    rw [limit_says ho.hi]
    simp only [ok_bind]
    rw [reference_eq href]
    simp only [ok_bind]
    rw [hrecs]
    rfl
  · rw [← htimes]
    exact hax
  · dsimp only
    rw [List.length_map, l2, hl]
  · have := congrArg List.length htimes
    rw [List.length_map, List.length_map] at this
    rw [← this, hl]
  · intro j file rec hj hrec c
    dsimp only at hrec
    rw [List.getElem?_map] at hrec
    cases hrj : recs[j]? with
    | none => rw [hrj] at hrec; cases hrec
    | some q =>
      rw [hrj] at hrec
      have hrec := Option.some.inj hrec
      dsimp only at hrec
      have hlt : j < ms.length := l2 ▸ (List.getElem?_eq_some_iff.1 hrj).1
      obtain ⟨-, hw⟩ := g2 j _ _ (List.getElem?_eq_getElem hlt) hrj
      have hc := hcell j _ _ (List.getElem?_eq_getElem hlt) hj
      have := shows_stored (d := ⟨o.path, x.namePrefix, o.longName, o.unit, tv, ref, fmt, scale, offset,
        lo.map (fun l => (l - offset) / scale), hi.map (fun l => (l - offset) / scale), recs.map (·.2)⟩) (lo := lo) (hi := hi) o.overflow ho.nonzero rfl rfl r.mask r.mvOut ms[j].2
        (fun c => (hc c).1) q.2 hw c
      rw [(hc c).2, hrx.1, hrx.2, hrec] at this
      exact this

/-- The data set of a run whose maps are known. -/
theorem dataset_of_maps (ne : NumExpr) (x : FileIn n k) (o : NcOut) {fmt : ValueFormat} {scale offset : ℚ}
    {lo hi : Option ℚ} (ho : NcMeans o fmt scale offset lo hi) (hm : x.mask ≠ none)
    (files : List (Str × (Fin k → Num))) (hfiles : x.bare.pcraster ne = .ok files) (hne : files ≠ [])
    (m0 : GMsg (Arr n)) (h0 : x.firstSelected = some m0) (ref : Int × Nat) (href : reference m0 = some ref)
    (u : Str) (hu : m0.get? "stepUnits".toList = some (.str u)) (hk : ∃ name, (u, name) ∈ gribUnits)
    (req : Option Str) (hreq : unitAsked o.stepUnits req) :
    ∃ (d : Dataset k) (r : RunIn n n k) (values : Dict Step (Field n n)) (change : Option Step),
      x.dataset ne o = .ok (some d) ∧ x.settings = .ok r ∧ r.fields ne = .ok (values, change) ∧
      Describes d o x.namePrefix ref fmt scale offset lo hi ∧
      TimesIn u req (values.map fun e => e.1.endStep) d.time ∧ d.records.length = files.length ∧
      values.length = files.length ∧
      ∀ (j : Nat) file rec, files[j]? = some file → d.records[j]? = some rec → ∀ c,
        Shows d lo hi (outside x.mask c = true ∨ file.2 c = x.mvOut) (file.2 c) (rec c) := by
  unfold FileIn.pcraster at hfiles
  rw [bare_settings] at hfiles
  cases hset : x.settings with
  | error e => rw [hset] at hfiles; cases hfiles
  | ok r =>
    rw [hset] at hfiles
    change ({ r with mask := none, mvClone := .nan } : RunIn n n k).pcraster ne = .ok files at hfiles
    have hrx : r.mask = x.mask ∧ r.mvOut = x.mvOut := by
      unfold FileIn.settings at hset
      cases hg : Reader.gribInfo x.file x.reader (infoCmd x.sel) with
      | mk i r1 =>
        rw [hg] at hset
        cases i with
        | error e => cases hset
        | ok info =>
          dsimp only at hset
          cases hs : Reader.select x.file r1 (selectCmd x.sel
              (readerWindow x.tstart x.tend (x.aggr.map AggrOpts.step) info.step info.end_).1
              (readerWindow x.tstart x.tend (x.aggr.map AggrOpts.step) info.step info.end_).2) with
          | mk i r2 =>
            rw [hs] at hset
            cases i with
            | error e => cases hset
            | ok s =>
              dsimp only at hset
              split at hset
              · cases hset
              · split at hset
                · cases hset
                · have := Except.ok.inj hset
                  rw [← this]
                  exact ⟨rfl, rfl⟩
    obtain ⟨d, values, change, ms, hf, hms, hrec, hrest⟩ := record_of_maps ne x r o ho hm hrx files hfiles hne m0 ref href u
      hu hk req hreq
    refine ⟨d, r, values, change, ?_, rfl, hf, hrest⟩
    unfold FileIn.dataset
    rw [hset]
    dsimp only
    rw [hms]
    dsimp only
    rw [h0]
    exact hrec

/-! ## Files -/

/-- The first selected message is one of those taken. -/
theorem first_selected (x : FileIn n k) (hidx : x.indexable = true)
    (hup : x.sel.shortName.map Char.toUpper ≠ x.sel.shortName) (E : Int) (hE : LastStep x.file x.sel E) (lo hi : Int)
    (hwin : ∀ step, (StepsDiffer x.file x.sel → step ≠ 0) →
      readerWindow x.tstart x.tend (x.aggr.map AggrOpts.step) step E = (lo, hi))
    (hne : taken x.file x.sel lo hi ≠ []) (nj : Int) (hnj : ∀ m ∈ taken x.file x.sel lo hi, m.nj = nj)
    (hdiff : (taken x.file x.sel lo hi).Pairwise Spec.Differ) :
    ∃ m0 ∈ taken x.file x.sel lo hi, x.firstSelected = some m0 := by
  have hsrc0 : x.reader.src = .index x.sel.perturbation.isSome := by
    unfold FileIn.reader Reader.init
    rw [hidx]
    rfl
  obtain ⟨info, r1, hinfo, hsrc1, hend, hstep⟩ := info_facts x.file x.reader _ hsrc0 x.sel E hE
  obtain ⟨g, r', s, r2, ms, hg, hgne, hin, hall, -⟩ :=
    select_facts x.file r1 _ hsrc1 x.sel lo hi hup hne nj hnj hdiff
  obtain ⟨m0, hm0, hfm⟩ := firstMsg_taken hg hgne hin hall
  refine ⟨m0, hm0, ?_⟩
  unfold FileIn.firstSelected
  rw [hinfo]
  dsimp only
  rw [hend, hwin info.step hstep]
  exact hfm

theorem shown_bare (v : Num) (c : Fin k) : shown none .nan v c = v := by
  unfold shown
  by_cases h : outside none c = true ∨ v = .nan
  · rw [if_pos h]
    rcases h with h | h
    · cases h
    · exact h.symm
  · rw [if_neg h]

/-- **C149.** A run without aggregation with netCDF output on an indexed file (messages taken as in C124, all with the
reference time `ref` and the step unit `u`; a clone with a missing cell): it makes one data set with path, variable name,
description, unit, packing and valid range as asked for, with time axis relative to `ref`, and one record for each message
taken, in the order of the end steps. A reader finds in each cell the value the table gives for the converted field,
corrected: exactly in format `f8`, else within half a scale unit; and it finds it missing outside the clone, where
the value is NaN or the missing value of the target coordinates, and out of the valid range. -/
theorem netcdf_plain_run (ne : NumExpr) (x : FileIn n k) (f : Num → Num) (mv : ℚ) (hidx : x.indexable = true)
    (hup : x.sel.shortName.map Char.toUpper ≠ x.sel.shortName) (hagg : x.aggr = none)
    (E : Int) (hE : LastStep x.file x.sel E) (sel : List (GMsg (Arr n)))
    (hsel : sel = taken x.file x.sel (x.tstart.getD 0) (windowEnd x.tend E)) (hne : sel ≠ [])
    (nj : Int) (hnj : ∀ m ∈ sel, m.nj = nj) (hdiff : sel.Pairwise Spec.Differ)
    (hmv : ∀ m ∈ sel, m.missingValue = .fin mv) (ref : Int × Nat) (href : ∀ m ∈ sel, reference m = some ref)
    (u : Str) (hu : ∀ m ∈ sel, m.get? "stepUnits".toList = some (.str u)) (hk : ∃ name, (u, name) ∈ gribUnits)
    (hconv : Means ne x.conversion f) (hfit : Fits x.table n) (hm : x.mask ≠ none)
    (o : NcOut) {fmt : ValueFormat} {scale offset : ℚ} {lo hi : Option ℚ} (ho : NcMeans o fmt scale offset lo hi)
    (req : Option Str) (hreq : unitAsked o.stepUnits req) :
    ∃ (ord : List (GMsg (Arr n))) (d : Dataset k), ord.Perm sel ∧
      ord.Pairwise (fun a b => a.endStep ≤ b.endStep) ∧ x.dataset ne o = .ok (some d) ∧
      Describes d o x.namePrefix ref fmt scale offset lo hi ∧ TimesIn u req (ord.map GMsg.endStep) d.time ∧
      d.records.length = ord.length ∧
      ∀ (j : Nat) m rec, ord[j]? = some m → d.records[j]? = some rec → ∀ c V,
        V = finalCell x.height (cellOf x.table x.mvOut
            (Spec.cutField (x.conversion.isSome && x.cutOff) (convertedField mv f m.values)) c) c →
        Shows d lo hi (outside x.mask c = true ∨ V = x.mvOut) V (rec c) := by
  subst hsel
  obtain ⟨m0, hm0, h0⟩ := first_selected x hidx hup E hE _ _
    (fun step _ => by rw [hagg]; exact window_plain x.tstart x.tend step E) hne nj hnj hdiff
  obtain ⟨info, t2, msgs, ms, hset, hend, hone, hmvs, hperm, hmap⟩ := file_settings x hidx hup E hE _ _
    (fun step _ => by rw [hagg]; exact window_plain x.tstart x.tend step E) hne nj hnj hdiff mv hmv
    (fun m h => by rw [href m h]; rfl)
  obtain ⟨ord, files, hop, hos, hrun, hlen, hfile⟩ := file_plain_run ne x.bare f mv hidx hup hagg E hE _ rfl hne nj hnj
    hdiff hmv (fun m h => by rw [href m h]; rfl) hconv hfit
  have hfne : files ≠ [] := by
    intro h
    rw [h] at hlen
    have : ord = [] := List.length_eq_zero_iff.1 hlen.symm
    rw [this] at hop
    exact hne (List.nil_perm.1 hop)
  obtain ⟨d, r, values, change, hd, hset', hf, hdesc, htime, hrl, hvl, hshow⟩ := dataset_of_maps ne x o ho hm files hrun
    hfne m0 h0 ref (href m0 hm0) u (hu m0 hm0) hk req hreq
  rw [hset] at hset'
  have hset' := Except.ok.inj hset'
  have htimes : values.map (fun e => e.1.endStep) = ord.map GMsg.endStep := by
    have hs1 := fields_sorted ne r values change hf
    refine List.Perm.eq_of_pairwise (le := (· ≤ ·)) (fun a b _ _ h1 h2 => le_antisymm h1 h2) ?_ ?_ ?_
    · rw [List.pairwise_map]; exact hs1
    · rw [List.pairwise_map]; exact hos
    · rw [← hset', fields_single ne _ f mv hmvs hconv hone] at hf
      have h1 : (convertedCtrl mv f (x.assemble info t2 msgs).ctrl).firstPart = .ok (convertedMsgs mv f msgs.first) := by
        unfold CtrlIn.firstPart convertedCtrl FileIn.assemble
        dsimp only
        rw [hagg, if_neg (by decide)]
      rw [h1] at hf
      have hf := congrArg Prod.fst (Except.ok.inj hf)
      dsimp only at hf
      have e1 : (values.map fun e => e.1.endStep).Perm (msgs.first.map fun e => e.1.endStep) := by
        rw [← hf]
        refine ((sortedBy_perm _ _).map _).trans ?_
        rw [List.map_map]
        unfold convertedMsgs
        rw [List.map_map]
        exact List.Perm.refl _
      have e2 : (msgs.first.map fun e => e.1.endStep) = ms.map GMsg.endStep := by
        have := congrArg (List.map fun q : Int × Int × Int × Int × Arr n => q.2.1) hmap
        rw [List.map_map, List.map_map] at this
        exact this
      rw [e2] at e1
      exact e1.trans ((hperm.trans hop.symm).map _)
  rw [htimes] at htime
  refine ⟨ord, d, hop, hos, hd, hdesc, htime, hrl.trans hlen, fun j m rec hj hrec c V hV => ?_⟩
  have hfj := hfile j m hj
  have := hshow j _ rec hfj hrec c
  dsimp only at this
  change Shows d lo hi (outside x.mask c = true ∨ shown none .nan _ c = x.mvOut) (shown none .nan _ c) (rec c) at this
  rw [shown_bare] at this
  rw [hV]
  exact this

/-- The times of a run into intervals. -/
theorem interval_times (ne : NumExpr) (r : RunIn n n k) (f : Num → Num) (mv : ℚ) (hmv : r.ctrl.msgs.mv = .fin mv)
    (hconv : Means ne r.conversion f) (hone : r.ctrl.msgs.changeResolutionStep = none) (hagg : r.ctrl.aggregate = true)
    (a : Int) (ha : r.ctrl.aggrStep = some a) (hpos : 0 < a) (ht : Intervals r.ctrl.aggrType r.ctrl.start)
    (values : Dict Step (Field n n)) (change : Option Step) (hf : r.fields ne = .ok (values, change)) :
    values.map (fun e => e.1.endStep) = rangeList (firstEnd r.ctrl.start a) (r.ctrl.end_ + 1) a := by
  have hs1 := fields_sorted ne r values change hf
  rw [fields_single ne r f mv hmv hconv hone, firstPart_aggregated (a := a) (by exact hagg) (by exact ha) (by exact hone)]
    at hf
  cases h1 : ((convertedCtrl mv f r.ctrl).aggregator a).doManipulation (convertedCtrl mv f r.ctrl).msgs.first with
  | error e => rw [h1] at hf; cases hf
  | ok v1 =>
    rw [h1] at hf
    have hf := congrArg Prod.fst (Except.ok.inj hf)
    dsimp only at hf
    obtain ⟨first, -, hk, hp⟩ := interval_keys _ _ v1 ht hpos rfl h1
    have e1 : (values.map fun e => e.1.endStep).Perm ((Dict.keys v1).map Step.endStep) := by
      rw [← hf]
      refine ((sortedBy_perm _ _).map _).trans ?_
      unfold Dict.keys
      rw [List.map_map, List.map_map]
      exact List.Perm.refl _
    have hp' : ((Dict.keys v1).map Step.endStep).Pairwise (· < ·) := by
      rw [List.pairwise_map]; exact hp
    have hr' : (rangeList (firstEnd r.ctrl.start a) (r.ctrl.end_ + 1) a).Pairwise (· < ·) := rangeList_pairwise hpos
    have e2 : ((Dict.keys v1).map Step.endStep).Perm (rangeList (firstEnd r.ctrl.start a) (r.ctrl.end_ + 1) a) := by
      rw [List.perm_ext_iff_of_nodup (hp'.imp fun h => ne_of_lt h) (hr'.imp fun h => ne_of_lt h)]
      intro t
      rw [List.mem_map, mem_rangeList hpos]
      constructor
      · rintro ⟨q, hq, rfl⟩
        obtain ⟨t, ⟨j, hj, hle⟩, rfl⟩ := (hk q).1 hq
        exact ⟨j, hj, Int.lt_add_one_of_le hle⟩
      · rintro ⟨j, hj, hle⟩
        exact ⟨_, (hk _).2 ⟨t, ⟨j, hj, Int.le_of_lt_add_one hle⟩, rfl⟩, rfl⟩
    refine List.Perm.eq_of_pairwise (le := (· ≤ ·)) (fun a b _ _ h1 h2 => le_antisymm h1 h2) ?_
      (hr'.imp fun h => le_of_lt h) (e1.trans e2)
    rw [List.pairwise_map]
    exact hs1

/-- The data set of a run into intervals whose maps are known. -/
theorem netcdf_intervals (ne : NumExpr) (x : FileIn n k) (f : Num → Num) (mv : ℚ) (hidx : x.indexable = true)
    (hup : x.sel.shortName.map Char.toUpper ≠ x.sel.shortName) (ao : AggrOpts) (hagg : x.aggr = some ao)
    (a : Int) (ha : ao.step = a) (hpos : 0 < a)
    (E : Int) (hE : LastStep x.file x.sel E) (hreg : StepsDiffer x.file x.sel) (start hi : Int)
    (hst : start = x.tstart.getD 0) (hhi : hi = windowEnd x.tend E) (hty : Intervals ao.type start)
    (sel : List (GMsg (Arr n)))
    (hsel : sel = taken x.file x.sel (max 0 (start - a)) hi) (hne : sel ≠ [])
    (nj : Int) (hnj : ∀ m ∈ sel, m.nj = nj) (hdiff : (sel.map GMsg.endStep).Nodup)
    (hmv : ∀ m ∈ sel, m.missingValue = .fin mv) (ref : Int × Nat) (href : ∀ m ∈ sel, reference m = some ref)
    (u : Str) (hu : ∀ m ∈ sel, m.get? "stepUnits".toList = some (.str u)) (hk : ∃ name, (u, name) ∈ gribUnits)
    (hconv : Means ne x.conversion f) (hm : x.mask ≠ none)
    (o : NcOut) {fmt : ValueFormat} {scale offset : ℚ} {lo up : Option ℚ} (ho : NcMeans o fmt scale offset lo up)
    (req : Option Str) (hreq : unitAsked o.stepUnits req) (files : List (Str × (Fin k → Num)))
    (hrun : x.bare.pcraster ne = .ok files) (hfirst : files ≠ []) :
    ∃ (d : Dataset k) (times : List Int), x.dataset ne o = .ok (some d) ∧
      Describes d o x.namePrefix ref fmt scale offset lo up ∧ TimesIn u req times d.time ∧
      (∀ (j : Nat) t, times[j]? = some t ↔ t = firstEnd start a + j * a ∧ t ≤ hi) ∧
      d.records.length = times.length ∧ files.length = times.length ∧
      ∀ (j : Nat) file rec, files[j]? = some file → d.records[j]? = some rec → ∀ c,
        Shows d lo up (outside x.mask c = true ∨ file.2 c = x.mvOut) (file.2 c) (rec c) := by
  subst hsel
  have hwin : ∀ step, (StepsDiffer x.file x.sel → step ≠ 0) →
      readerWindow x.tstart x.tend (x.aggr.map AggrOpts.step) step E = (max 0 (start - a), hi) := fun step h => by
    rw [hagg, hst, hhi, ← ha]
    exact window_aggr x.tstart x.tend ao.step step E (h hreg)
  obtain ⟨m0, hm0, h0⟩ := first_selected x hidx hup E hE _ _ hwin hne nj hnj (differ_of_ends hdiff)
  obtain ⟨info, t2, msgs, ms, hset, hend, hone, hmvs, hperm, hmap⟩ := file_settings x hidx hup E hE _ _ hwin hne nj hnj
    (differ_of_ends hdiff) mv hmv (fun m h => by rw [href m h]; rfl)
  obtain ⟨d, r, values, change, hd, hset', hf, hdesc, htime, hrl, hvl, hshow⟩ := dataset_of_maps ne x o ho hm files hrun
    hfirst m0 h0 ref (href m0 hm0) u (hu m0 hm0) hk req hreq
  rw [hset] at hset'
  have hset' := Except.ok.inj hset'
  have hr := range_eq x info
  rw [hend] at hr
  have hrs : (x.assemble info t2 msgs).ctrl.start = start := by
    rw [hst]; exact congrArg Prod.fst hr
  have hre : (x.assemble info t2 msgs).ctrl.end_ = hi := by
    rw [hhi]; exact congrArg Prod.snd hr
  rw [← hset'] at hf
  have htimes := interval_times ne (x.assemble info t2 msgs) f mv hmvs hconv hone
    (by show x.aggr.isSome = true; rw [hagg]; rfl) a
    (by show x.aggr.map AggrOpts.step = some a; rw [hagg, ← ha]; rfl) hpos
    (by
      rw [hrs]
      show Intervals ((x.aggr.map AggrOpts.type).getD "") start
      rw [hagg]
      exact hty) values change hf
  rw [hrs, hre] at htimes
  rw [htimes] at htime
  have hll : (rangeList (firstEnd start a) (hi + 1) a).length = files.length := by
    rw [← htimes, List.length_map, hvl]
  refine ⟨d, _, hd, hdesc, htime, fun j t => ⟨fun h => ?_, fun h => ?_⟩, hrl.trans hll.symm, hll.symm, hshow⟩
  · have hlt := (List.getElem?_eq_some_iff.1 h).1
    have h2 := rangeList_length_le hpos j hlt
    rw [rangeList_get hpos j h2] at h
    have := Option.some.inj h
    exact ⟨this.symm, by omega⟩
  · obtain ⟨rfl, h⟩ := h
    exact rangeList_get hpos j (by omega)

/-- **C150**, accumulation. As C149 for a run that accumulates over steps of `a` (C125), if there is an interval at all:
one record for each step `T`, `T + a`, … up to the end, with these times, showing the maps of C125. -/
theorem netcdf_accumulation_run (ne : NumExpr) (x : FileIn n k) (f : Num → Num) (mv : ℚ) (hidx : x.indexable = true)
    (hup : x.sel.shortName.map Char.toUpper ≠ x.sel.shortName) (ao : AggrOpts) (hagg : x.aggr = some ao)
    (hty : ao.type = "accumulation") (a : Int) (ha : ao.step = a) (hpos : 0 < a)
    (E : Int) (hE : LastStep x.file x.sel E) (hreg : StepsDiffer x.file x.sel) (start hi : Int)
    (hst : start = x.tstart.getD 0) (hhi : hi = windowEnd x.tend E) (sel : List (GMsg (Arr n)))
    (hsel : sel = taken x.file x.sel (max 0 (start - a)) hi) (hne : sel ≠ [])
    (nj : Int) (hnj : ∀ m ∈ sel, m.nj = nj) (hdiff : (sel.map GMsg.endStep).Nodup)
    (hmv : ∀ m ∈ sel, m.missingValue = .fin mv) (ref : Int × Nat) (href : ∀ m ∈ sel, reference m = some ref)
    (u : Str) (hu : ∀ m ∈ sel, m.get? "stepUnits".toList = some (.str u)) (hk : ∃ name, (u, name) ∈ gribUnits)
    (hconv : Means ne x.conversion f) (hfit : Fits x.table n)
    (hcur : ∀ t, InRange (firstEnd start a) hi a t →
      (∃ m ∈ sel, m.endStep = t) ∧ (t - a = 0 ∨ ∃ m ∈ sel, m.endStep = t - a))
    (hsome : firstEnd start a ≤ hi) (hm : x.mask ≠ none)
    (o : NcOut) {fmt : ValueFormat} {scale offset : ℚ} {lo up : Option ℚ} (ho : NcMeans o fmt scale offset lo up)
    (req : Option Str) (hreq : unitAsked o.stepUnits req) :
    ∃ (d : Dataset k) (times : List Int), x.dataset ne o = .ok (some d) ∧
      Describes d o x.namePrefix ref fmt scale offset lo up ∧ TimesIn u req times d.time ∧
      (∀ (j : Nat) t, times[j]? = some t ↔ t = firstEnd start a + j * a ∧ t ≤ hi) ∧
      d.records.length = times.length ∧
      ∀ (j : Nat) t rec, times[j]? = some t → d.records[j]? = some rec →
        ∃ (mc : GMsg (Arr n)) (vp D : Arr n), mc ∈ sel ∧ mc.endStep = t ∧
          (if t = a ∧ (ao.forceZero = true ∨ ∀ m ∈ sel, m.endStep ≠ 0) then
            (∀ i, vp.data i = 0 ∧ vp.masked i = false)
           else ∃ mp ∈ sel, mp.endStep = t - a ∧ vp = convertedField mv f mp.values) ∧
          (∀ i, D.data i = ((convertedField mv f mc.values).data i - vp.data i) * Num.ofInt x.unitTime / Num.ofInt a ∧
            D.masked i = vp.masked i) ∧
          ∀ c V, V = finalCell x.height (cellOf x.table x.mvOut
              (Spec.cutField (x.conversion.isSome && x.cutOff) D) c) c →
            Shows d lo up (outside x.mask c = true ∨ V = x.mvOut) V (rec c) := by
  obtain ⟨files, hrun, hlen, hfile⟩ := file_accumulation_run ne x.bare f mv hidx hup ao hagg hty a ha hpos E hE hreg start
    hi hst hhi sel hsel hne nj hnj hdiff hmv (fun m h => by rw [href m h]; rfl) hconv hfit hcur
  have hfne : files ≠ [] := by
    intro h
    have := (hlen 0).2 (by simpa using hsome)
    rw [h] at this
    exact absurd this (by simp)
  obtain ⟨d, times, hd, hdesc, htime, hget, hrl, hfl, hshow⟩ := netcdf_intervals ne x f mv hidx hup ao hagg a ha hpos E hE hreg
    start hi hst hhi (Or.inl hty) sel hsel hne nj hnj hdiff hmv ref href u hu hk hconv hm o ho req hreq files hrun hfne
  refine ⟨d, times, hd, hdesc, htime, hget, hrl, fun j t rec hj hrec => ?_⟩
  obtain ⟨ht, hle⟩ := (hget j t).1 hj
  obtain ⟨mc, vp, D, h1, h2, h3, h4, h5⟩ := hfile j t ht hle
  refine ⟨mc, vp, D, h1, h2, h3, h4, fun c V hV => ?_⟩
  have := hshow j _ rec h5 hrec c
  dsimp only at this
  change Shows d lo up (outside x.mask c = true ∨ shown none .nan _ c = x.mvOut) (shown none .nan _ c) (rec c) at this
  rw [shown_bare] at this
  rw [hV]
  exact this

/-- **C150**, average. As C149 for a run that averages over steps of `a` hours (C125), if there is an interval at all. -/
theorem netcdf_average_run (ne : NumExpr) (x : FileIn n k) (f : Num → Num) (mv : ℚ) (hidx : x.indexable = true)
    (hup : x.sel.shortName.map Char.toUpper ≠ x.sel.shortName) (ao : AggrOpts) (hagg : x.aggr = some ao)
    (hty : ao.type = "average") (hh : ao.halfweights = false) (a : Int) (ha : ao.step = a) (hpos : 0 < a)
    (hinst : ∀ m ∈ x.file, named x.sel m = true → String.ofList m.stepType ≠ "accum")
    (E : Int) (hE : LastStep x.file x.sel E) (hreg : StepsDiffer x.file x.sel) (start hi : Int)
    (hst : start = x.tstart.getD 0) (h0 : start ≠ 0) (hhi : hi = windowEnd x.tend E) (sel : List (GMsg (Arr n)))
    (hsel : sel = taken x.file x.sel (max 0 (start - a)) hi)
    (nj : Int) (hnj : ∀ m ∈ sel, m.nj = nj) (hdiff : (sel.map GMsg.endStep).Nodup)
    (hmv : ∀ m ∈ sel, m.missingValue = .fin mv) (ref : Int × Nat) (href : ∀ m ∈ sel, reference m = some ref)
    (u : Str) (hu : ∀ m ∈ sel, m.get? "stepUnits".toList = some (.str u)) (hk : ∃ name, (u, name) ∈ gribUnits)
    (hconv : Means ne x.conversion f) (hfit : Fits x.table n)
    (hex : ∃ m ∈ sel, hi ≤ m.endStep) (hsome : start ≤ hi) (hm : x.mask ≠ none)
    (o : NcOut) {fmt : ValueFormat} {scale offset : ℚ} {lo up : Option ℚ} (ho : NcMeans o fmt scale offset lo up)
    (req : Option Str) (hreq : unitAsked o.stepUnits req) :
    ∃ (d : Dataset k) (times : List Int), x.dataset ne o = .ok (some d) ∧
      Describes d o x.namePrefix ref fmt scale offset lo up ∧ TimesIn u req times d.time ∧
      (∀ (j : Nat) t, times[j]? = some t ↔ t = start + j * a ∧ t ≤ hi) ∧
      d.records.length = times.length ∧
      ∀ (j : Nat) t rec, times[j]? = some t → d.records[j]? = some rec →
        ∃ (F : Int → GMsg (Arr n)) (D : Arr n),
          (∀ h, t - a < h → h ≤ t → F h ∈ sel ∧ h ≤ (F h).endStep ∧
            ∀ m ∈ sel, h ≤ m.endStep → (F h).endStep ≤ m.endStep) ∧
          (∀ i, D.data i = ((List.range a.toNat).map fun (y : Nat) =>
              (convertedField mv f (F (t - a + 1 + (y : Int))).values).data i).sum / Num.ofInt a ∧
            D.masked i = false) ∧
          ∀ c V, V = finalCell x.height (cellOf x.table x.mvOut
              (Spec.cutField (x.conversion.isSome && x.cutOff) D) c) c →
            Shows d lo up (outside x.mask c = true ∨ V = x.mvOut) V (rec c) := by
  obtain ⟨files, hrun, hlen, hfile⟩ := file_average_run ne x.bare f mv hidx hup ao hagg hty hh a ha hpos hinst E hE hreg
    start hi hst h0 hhi sel hsel nj hnj hdiff hmv (fun m h => by rw [href m h]; rfl) hconv hfit hex
  have hne : sel ≠ [] := by
    obtain ⟨m, hm, -⟩ := hex
    intro h
    rw [h] at hm
    cases hm
  have hfne : files ≠ [] := by
    intro h
    have := (hlen 0).2 (by simpa using hsome)
    rw [h] at this
    exact absurd this (by simp)
  have hfe : firstEnd start a = start := by
    unfold firstEnd
    rw [if_neg h0]
  obtain ⟨d, times, hd, hdesc, htime, hget, hrl, hfl, hshow⟩ := netcdf_intervals ne x f mv hidx hup ao hagg a ha hpos E hE hreg
    start hi hst hhi (Or.inr ⟨hty, h0⟩) sel hsel hne nj hnj hdiff hmv ref href u hu hk hconv hm o ho req hreq files hrun
    hfne
  rw [hfe] at hget
  refine ⟨d, times, hd, hdesc, htime, hget, hrl, fun j t rec hj hrec => ?_⟩
  obtain ⟨ht, hle⟩ := (hget j t).1 hj
  obtain ⟨F, D, h1, h2, h5⟩ := hfile j t ht hle
  refine ⟨F, D, h1, h2, fun c V hV => ?_⟩
  have := hshow j _ rec h5 hrec c
  dsimp only at this
  change Shows d lo up (outside x.mask c = true ∨ shown none .nan _ c = x.mvOut) (shown none .nan _ c) (rec c) at this
  rw [shown_bare] at this
  rw [hV]
  exact this

/-! ## Refusals -/

namespace Spec

/-- A text that is no number. -/
def NoNumber (float : Str → Option ℚ) (v : JVal) : Prop := ∃ t, v = .str t ∧ float t = none

/-- Value formats of netCDF4. -/
def ncFormats : List String := ["S1", "i1", "u1", "i2", "u2", "i4", "u4", "i8", "u8", "f4", "f8"]

end Spec

theorem number_no {float : Str → Option ℚ} {v : JVal} (h : NoNumber float v) : NcOut.number float v = .error .valueError := by
  obtain ⟨t, rfl, ht⟩ := h
  show (match float t with | none => _ | some q => _) = _
  rw [ht]

theorem limit_no {float : Str → Option ℚ} {v : JVal} (h : NoNumber float v) (scale offset : ℚ) :
    NcOut.limit float scale offset v = .error .valueError := by
  unfold NcOut.limit
  rw [number_no h]
  obtain ⟨t, rfl, -⟩ := h
  rw [if_neg (by intro h; cases h)]
  rfl

theorem format_no {v : JVal} (h : (∃ t, v = .str t ∧ ∀ f ∈ ncFormats, t ≠ f.toList) ∨ (v ≠ .null ∧ ∀ t, v ≠ .str t)) :
    NcOut.format v = .error .keyError := by
  rcases h with ⟨t, rfl, ht⟩ | ⟨h0, h1⟩
  · have hn : ∀ f : String, f ∈ ncFormats → ¬ t = f.toList := fun f hf => ht f hf
    unfold NcOut.format
    dsimp only
    rw [if_neg (hn "i1" (by decide)), if_neg (hn "i2" (by decide)), if_neg (hn "i4" (by decide)),
      if_neg (hn "f8" (by decide)), if_neg]
    intro hm
    rw [List.mem_map] at hm
    obtain ⟨f, hf, hft⟩ := hm
    refine hn f ?_ hft.symm
    revert hf
    unfold ncFormats
    clear hft hn ht
    intro hf
    simp only [List.mem_cons, List.not_mem_nil, or_false] at hf ⊢
    tauto
  · cases v with
    | null => exact absurd rfl h0
    | str t => exact absurd rfl (h1 t)
    | bool b => rfl
    | int z => rfl
    | num q => rfl

/-- Maps and first message of a run that writes its PCRaster files. -/
theorem maps_of_files (ne : NumExpr) (x : FileIn n k) (files : List (Str × (Fin k → Num)))
    (h : x.pcraster ne = .ok files) :
    ∃ (r : RunIn n n k) (ms : List (Int × Arr k)) (m0 : GMsg (Arr n)) (ref : Int × Nat), x.settings = .ok r ∧
      r.maps ne = .ok ms ∧ ms.length = files.length ∧ r.mask = x.mask ∧ x.firstSelected = some m0 ∧ m0 ∈ x.file ∧
      m0.referenceTime = .ok ref := by
  unfold FileIn.pcraster at h
  cases hset : x.settings with
  | error e => rw [hset] at h; cases h
  | ok r =>
    rw [hset] at h
    change r.pcraster ne = .ok files at h
    have hfirst : r.mask = x.mask ∧ ∃ m0 ref, x.firstSelected = some m0 ∧ m0 ∈ x.file ∧ m0.referenceTime = .ok ref := by
      unfold FileIn.settings at hset
      unfold FileIn.firstSelected
      cases hg : Reader.gribInfo x.file x.reader (infoCmd x.sel) with
      | mk i r1 =>
        rw [hg] at hset
        cases i with
        | error e => cases hset
        | ok info =>
          dsimp only at hset ⊢
          generalize hkw : selectCmd x.sel
              (readerWindow x.tstart x.tend (x.aggr.map AggrOpts.step) info.step info.end_).1
              (readerWindow x.tstart x.tend (x.aggr.map AggrOpts.step) info.step info.end_).2 = kw at hset ⊢
          cases hs : Reader.select x.file r1 kw with
          | mk i r2 =>
            rw [hs] at hset
            cases i with
            | error e => cases hset
            | ok s =>
              dsimp only at hset
              cases ht : FileIn.firstTime x.file r1 kw with
              | error e => rw [ht] at hset; cases hset
              | ok ref =>
                rw [ht] at hset
                dsimp only at hset
                split at hset
                · cases hset
                · have hr := Except.ok.inj hset
                  refine ⟨by rw [← hr]; rfl, ?_⟩
                  unfold FileIn.firstTime at ht
                  cases hm : FileIn.firstMsg x.file r1 kw with
                  | none => rw [hm] at ht; cases ht
                  | some m0 =>
                    rw [hm] at ht
                    refine ⟨m0, ref, rfl, ?_, ht⟩
                    unfold FileIn.firstMsg at hm
                    split at hm
                    · cases hm
                    · rw [Option.bind_eq_some_iff] at hm
                      obtain ⟨q, -, hq⟩ := hm
                      exact List.mem_of_getElem? hq
    obtain ⟨hrm, m0, ref, hm0, hmem, href⟩ := hfirst
    have hb : ∃ files', ({ r with mask := none, mvClone := .nan } : RunIn n n k).pcraster ne = .ok files' ∧
        files'.length = files.length := by
      unfold RunIn.pcraster at h ⊢
      have hfe : ({ r with mask := none, mvClone := .nan } : RunIn n n k).fields ne = r.fields ne := rfl
      rw [hfe]
      cases hf : r.fields ne with
      | error e => rw [hf] at h; cases h
      | ok vc =>
        obtain ⟨values, change⟩ := vc
        rw [hf] at h
        dsimp only at h ⊢
        obtain ⟨l1, g1⟩ := mapM_get _ _ _ h
        have hlen : files.length = values.length := by
          rw [l1]
          unfold writePcraster
          simp only [List.length_map, List.length_zipIdx, gridLoop_length]
        change ∃ files', ((writePcraster r.namePrefix r.fmap r.ext (fun b f => (r.render b f).map (pcrWrite none .nan))
          change values).mapM fun q => q.2.map fun c => (q.1, c)) = .ok files' ∧ _
        obtain ⟨files', hf'⟩ : ∃ files', ((writePcraster r.namePrefix r.fmap r.ext (fun b f => (r.render b f).map (pcrWrite none .nan))
          change values).mapM fun q => q.2.map fun c => (q.1, c)) = .ok files' := by
          apply mapM_some_ok
          intro q hq
          obtain ⟨j, hj⟩ := List.mem_iff_getElem?.1 hq
          unfold writePcraster at hj
          rw [List.getElem?_map, List.getElem?_zipIdx] at hj
          cases hb : (gridLoop change false values)[j]? with
          | none => rw [hb] at hj; cases hj
          | some e =>
            obtain ⟨t, v, b⟩ := e
            rw [hb] at hj
            have hlt : j < files.length := by
              rw [hlen, ← gridLoop_length change false values]
              exact (List.getElem?_eq_some_iff.1 hb).1
            have hw : (writePcraster r.namePrefix r.fmap r.ext
                (fun b f => (r.render b f).map (pcrWrite r.mask r.mvClone))
                change values)[j]? = some (pcrName r.namePrefix r.fmap r.ext ((1 + j : Nat) : Int),
                  (r.render b v).map (pcrWrite r.mask r.mvClone)) := by
              unfold writePcraster
              rw [List.getElem?_map, List.getElem?_zipIdx, hb]
              rfl
            have hg := g1 j _ _ hw (List.getElem?_eq_getElem hlt)
            dsimp only at hg
            rw [← Option.some.inj hj]
            dsimp only
            cases ha : r.render b v with
            | error e => rw [ha] at hg; cases hg
            | ok a => exact ⟨_, rfl⟩
        refine ⟨files', hf', ?_⟩
        obtain ⟨l2, -⟩ := mapM_get _ _ _ hf'
        rw [l2, hlen]
        unfold writePcraster
        simp only [List.length_map, List.length_zipIdx, gridLoop_length]
    obtain ⟨files', hf', hl'⟩ := hb
    obtain ⟨values, change, ms, -, hms, hl, -⟩ := maps_of_bare ne r files' hf'
    exact ⟨r, ms, m0, ref, rfl, hms, hl.trans hl', hrm, hm0, hmem, href⟩

/-- The data set of maps `ms` is refused. -/
theorem record_refused {m : Nat} (x : FileIn n k) (o : NcOut) (r : RunIn n m k) (ms : List (Int × Arr k)) (m0 : GMsg (Arr n))
    (ref : Int × Nat) (href : m0.referenceTime = .ok ref) (hrm : r.mask = x.mask) (u : Str) (hunit : m0.stepUnit = u) :
    ((∀ name, (u, name) ∉ gribUnits) → x.record o r m0 ms = .error .keyError) ∧
    ((∃ name, (u, name) ∈ gribUnits) →
      (((∃ t, o.valueFormat = .str t ∧ ∀ f ∈ ncFormats, t ≠ f.toList) ∨
          (o.valueFormat ≠ .null ∧ ∀ t, o.valueFormat ≠ .str t)) → x.record o r m0 ms = .error .keyError) ∧
      ∀ fmt, (o.valueFormat = .null ∧ fmt = .f8) ∨ o.valueFormat = .str (formatName fmt).toList →
        ((∀ v ∈ [o.scaleFactor, o.offset], NoNumber o.float v ∨ ∃ q, Says o.float v q) →
         (∀ v ∈ [o.validMin, o.validMax], NoNumber o.float v ∨ ∃ l, SaysLimit o.float v l) →
         (∃ v ∈ [o.scaleFactor, o.offset, o.validMin, o.validMax], NoNumber o.float v) →
          x.record o r m0 ms = .error .valueError) ∧
        ∀ scale offset lo hi, NcMeans o fmt scale offset lo hi →
          ((ms ≠ [] ∧ x.mask = none) ∨ (ms = [] ∧ x.mask ≠ none)) → x.record o r m0 ms = .error .valueError) := by
  unfold FileIn.record
  rw [hunit]
  refine ⟨fun hk => ?_, fun hk => ?_⟩
  · have hx := (time_axis u (NcOut.requested o.stepUnits) (ms.map (·.1))).1
    cases ht : timeAxis u (NcOut.requested o.stepUnits) (ms.map (·.1)) with
    | ok tv =>
      obtain ⟨name, hn⟩ := hx.1 ⟨tv, ht⟩
      exact absurd hn (hk name)
    | error e =>
      dsimp only
      have hnone : unitName u = none := by
        cases hn : unitName u with
        | none => rfl
        | some nm => exact absurd ((unitName_iff u nm).1 hn) (hk nm)
      unfold timeAxis at ht
      rw [hnone] at ht
      dsimp only at ht
      cases hr : NcOut.requested o.stepUnits with
      | none => rw [hr] at ht; exact congrArg _ (Except.error.inj (ht : Except.error PyErr.keyError = .error e)).symm
      | some out =>
        rw [hr] at ht
        dsimp only at ht
        cases hn : unitName out with
        | none => rw [hn] at ht; exact congrArg _ (Except.error.inj (ht : Except.error PyErr.keyError = .error e)).symm
        | some nm =>
          rw [hn] at ht
          dsimp only at ht
          split at ht
          · cases ht
          · split at ht
            · cases ht
            · exact congrArg _ (Except.error.inj ht).symm
  · obtain ⟨tv, htv⟩ := (time_axis u (NcOut.requested o.stepUnits) (ms.map (·.1))).1.2 hk
    rw [htv]
    dsimp only
    refine ⟨fun hf => ?_, fun fmt hf => ?_⟩
    · rw [format_no hf]
    · rw [format_says hf]
      dsimp only
      refine ⟨fun hs hlim hbad => ?_, fun scale offset lo hi ho hfm => ?_⟩
      · rcases hs o.scaleFactor (by simp) with h1 | ⟨q1, h1⟩
        · rw [number_no h1]; rfl
        rw [number_says h1]
        rw [ok_bind]
        rcases hs o.offset (by simp) with h2 | ⟨q2, h2⟩
        · rw [number_no h2]; rfl
        rw [number_says h2]
        rw [ok_bind]
        rcases hlim o.validMin (by simp) with h3 | ⟨q3, h3⟩
        · rw [limit_no h3]; rfl
        rw [limit_says h3]
        rw [ok_bind]
        rcases hlim o.validMax (by simp) with h4 | ⟨q4, h4⟩
        · rw [limit_no h4]; rfl
        exfalso
        have ex : ∀ {v q}, Says o.float v q → ¬ NoNumber o.float v := by
          rintro v q hv ⟨t, rfl, ht⟩
          rcases hv with ⟨z, hz, -⟩ | hz | ⟨t', hz, ht'⟩ | ⟨hz, -⟩ | ⟨hz, -⟩
          · cases hz
          · cases hz
          · rw [← JVal.str.inj hz, ht] at ht'
            cases ht'
          · cases hz
          · cases hz
        have ex' : ∀ {v l}, SaysLimit o.float v l → ¬ NoNumber o.float v := by
          rintro v l (⟨rfl, -⟩ | ⟨-, q, hq, -⟩)
          · rintro ⟨t, hz, -⟩
            cases hz
          · exact ex hq
        obtain ⟨v, hv, hno⟩ := hbad
        simp only [List.mem_cons, List.not_mem_nil, or_false] at hv
        rcases hv with rfl | rfl | rfl | rfl
        exacts [ex h1 hno, ex h2 hno, ex' h3 hno, ex' h4 hno]
      · rw [number_says ho.scale]
        simp only [ok_bind]
        rw [number_says ho.offset]
        simp only [ok_bind]
        rw [limit_says ho.lo]
        simp only [ok_bind]
        rw [limit_says ho.hi]
        simp only [ok_bind]
        rw [href]
        simp only [ok_bind]
        have hst : r.store ⟨fmt, scale, offset, o.overflow⟩ ms = .error .valueError := by
          unfold RunIn.store
          rcases hfm with ⟨hne, hm⟩ | ⟨he, hm⟩
          · rw [if_neg (by rw [hrm, hm]; simp), hrm, hm]
            cases ms with
            | nil => exact absurd rfl hne
            | cons q ms => rfl
          · rw [he, hrm, if_pos]
            cases hx : x.mask with
            | none => exact absurd hx hm
            | some m => rfl
        rw [hst]
        rfl

/-- **C151.** Where the PCRaster output of a command is written, its netCDF output is refused: with KeyError if the
step unit of the messages is no GRIB unit, or else if the value format is none of netCDF4's; with ValueError, if scale factor,
offset or a limit of the valid range is a text that is no number; and with ValueError, if there is a map to write and
the clone has no missing cell, or no map and the clone has one. -/
theorem netcdf_refused (ne : NumExpr) (x : FileIn n k) (o : NcOut) (files : List (Str × (Fin k → Num)))
    (h : x.pcraster ne = .ok files) (u : Str) (hu : ∀ m ∈ x.file, m.get? "stepUnits".toList = some (.str u)) :
    ((∀ name, (u, name) ∉ gribUnits) → x.dataset ne o = .error .keyError) ∧
    ((∃ name, (u, name) ∈ gribUnits) →
      (((∃ t, o.valueFormat = .str t ∧ ∀ f ∈ ncFormats, t ≠ f.toList) ∨
          (o.valueFormat ≠ .null ∧ ∀ t, o.valueFormat ≠ .str t)) → x.dataset ne o = .error .keyError) ∧
      ∀ fmt, (o.valueFormat = .null ∧ fmt = .f8) ∨ o.valueFormat = .str (formatName fmt).toList →
        ((∀ v ∈ [o.scaleFactor, o.offset], NoNumber o.float v ∨ ∃ q, Says o.float v q) →
         (∀ v ∈ [o.validMin, o.validMax], NoNumber o.float v ∨ ∃ l, SaysLimit o.float v l) →
         (∃ v ∈ [o.scaleFactor, o.offset, o.validMin, o.validMax], NoNumber o.float v) →
          x.dataset ne o = .error .valueError) ∧
        ∀ scale offset lo hi, NcMeans o fmt scale offset lo hi →
          ((files ≠ [] ∧ x.mask = none) ∨ (files = [] ∧ x.mask ≠ none)) → x.dataset ne o = .error .valueError) := by
  obtain ⟨r, ms, m0, ref, hset, hms, hl, hrm, h0, hmem, href⟩ := maps_of_files ne x files h
  have hunit : m0.stepUnit = u := by
    unfold GMsg.stepUnit
    rw [hu m0 hmem]
  have hd : x.dataset ne o = x.record o r m0 ms := by
    unfold FileIn.dataset
    rw [hset]
    dsimp only
    rw [hms]
    dsimp only
    rw [h0]
  rw [hd]
  have hnil : files = [] ↔ ms = [] := by rw [← List.length_eq_zero_iff, ← hl, List.length_eq_zero_iff]
  rw [show files ≠ [] ↔ ms ≠ [] from not_congr hnil, hnil]
  exact record_refused x o r ms m0 ref href hrm u hunit

/-- **C151**, no interval. An accumulation over `a` hours whose range holds no interval: the PCRaster run ends well
and writes nothing; the netCDF run on a clone with missing cells ends with ValueError. -/
theorem netcdf_no_interval (ne : NumExpr) (x : FileIn n k) (f : Num → Num) (mv : ℚ) (hidx : x.indexable = true)
    (hup : x.sel.shortName.map Char.toUpper ≠ x.sel.shortName) (ao : AggrOpts) (hagg : x.aggr = some ao)
    (hty : ao.type = "accumulation") (a : Int) (ha : ao.step = a) (hpos : 0 < a)
    (E : Int) (hE : LastStep x.file x.sel E) (hreg : StepsDiffer x.file x.sel) (start hi : Int)
    (hst : start = x.tstart.getD 0) (hhi : hi = windowEnd x.tend E) (sel : List (GMsg (Arr n)))
    (hsel : sel = taken x.file x.sel (max 0 (start - a)) hi) (hne : sel ≠ [])
    (nj : Int) (hnj : ∀ m ∈ sel, m.nj = nj) (hdiff : (sel.map GMsg.endStep).Nodup)
    (hmv : ∀ m ∈ sel, m.missingValue = .fin mv) (href : ∀ m ∈ sel, (reference m).isSome = true)
    (u : Str) (hu : ∀ m ∈ x.file, m.get? "stepUnits".toList = some (.str u)) (hk : ∃ name, (u, name) ∈ gribUnits)
    (hconv : Means ne x.conversion f) (hfit : Fits x.table n)
    (hnone : hi < firstEnd start a) (hm : x.mask ≠ none)
    (o : NcOut) {fmt : ValueFormat} {scale offset : ℚ} {lo up : Option ℚ} (ho : NcMeans o fmt scale offset lo up) :
    x.pcraster ne = .ok [] ∧ x.dataset ne o = .error .valueError := by
  obtain ⟨files, hrun, hlen, -⟩ := file_accumulation_run ne x f mv hidx hup ao hagg hty a ha hpos E hE hreg start
    hi hst hhi sel hsel hne nj hnj hdiff hmv href hconv hfit (by
      rintro t ⟨j, rfl, hj⟩
      have : (0 : Int) ≤ j * a := Int.mul_nonneg (Int.natCast_nonneg j) hpos.le
      omega)
  have he : files = [] := by
    rw [← List.length_eq_zero_iff]
    by_contra hc
    have := (hlen 0).1 (Nat.pos_of_ne_zero hc)
    simp at this
    omega
  subst he
  exact ⟨hrun, (((netcdf_refused ne x o [] hrun u hu).2 hk).2 fmt ho.format).2 scale offset lo up ho (.inr ⟨rfl, hm⟩)⟩

/-! ## Concrete runs -/

namespace Demo

/-- date, time and step unit of the demonstration messages. -/
def noonH : Dict Str KV :=
  [("dataDate".toList, .int 20240501), ("dataTime".toList, .int 1200), ("stepUnits".toList, .str "h".toList)]

def rainH : List (GMsg (Arr 2)) := rain.map fun m => { m with other := noonH }

/-- Two cells, the second outside the clone. -/
def ncIn (tstart tend : Option Int) (aggr : Option AggrOpts) : FileIn 2 2 where
  file := rainH
  indexable := true
  sel := ⟨"tp".toList, none, none, none, none⟩
  tstart := tstart
  tend := tend
  aggr := aggr
  unitTime := 24
  cutOff := false
  conversion := none
  table := .nearest fun _ => 1
  table2 := .nearest fun _ => 1
  mvOut := .fin (-1)
  height := none
  height2 := none
  mask := some fun c => if c = 0 then false else true
  mvClone := .nan
  namePrefix := "tp".toList
  fmap := 1
  ext := 1
  gridId := []
  gridId2 := []

/-- Packed as `i2` with scale `1/2` and offset `1`, in days. -/
def ncOut : NcOut where
  path := "/out/tp_None.nc".toList
  longName := "rain".toList
  unit := "mm".toList
  stepUnits := .str "D".toList
  validMin := .null
  validMax := .null
  valueFormat := .str "i2".toList
  offset := .int 1
  scaleFactor := .str "0.5".toList
  float := fun t => if t = "0.5".toList then some (1 / 2) else none
  overflow := fun _ => 0

theorem ncOut_means : NcMeans ncOut .i2 (1 / 2) 1 none none :=
  ⟨.inr rfl, .inr (.inr (.inl ⟨_, rfl, rfl⟩)), by norm_num, .inl ⟨1, rfl, by norm_num⟩, .inl ⟨rfl, rfl⟩, .inl ⟨rfl, rfl⟩⟩

theorem rainH_last : LastStep rainH (ncIn none none none).sel 18 := by
  constructor
  · exact ⟨{ fmsg "tp" 0 18 7 9 with other := noonH }, List.mem_map.2 ⟨fmsg "tp" 0 18 7 9, by unfold rain; simp, rfl⟩,
      by decide +kernel, rfl⟩
  · decide +kernel

theorem rainH_steps : StepsDiffer rainH (ncIn none none none).sel := by
  refine ⟨by decide +kernel, ?_⟩
  intro m hm
  have := congrArg List.length hm
  have h3 : (rainH.filter (named (ncIn none none none).sel)).length = 3 := by decide +kernel
  rw [h3] at this
  cases this

theorem hours : ∃ name, ("h".toList, name) ∈ gribUnits := ⟨"hours".toList, by unfold gribUnits; simp⟩

/-- C149: three records. -/
example : ∃ d : Dataset 2, (ncIn none none none).dataset (fun _ => none) ncOut = .ok (some d) ∧ d.records.length = 3 ∧
    d.since = (20240501, 12) ∧ d.unit = "mm".toList := by
  obtain ⟨ord, d, hp, -, hd, hdesc, -, hl, -⟩ := netcdf_plain_run (fun _ => none) (ncIn none none none) id (-9999) rfl
    (by decide +kernel) rfl 18 rainH_last _ rfl (fun h => absurd (congrArg List.length h) (by decide +kernel)) 10
    (by decide +kernel) (differ_of_ends (by decide +kernel)) (by decide +kernel) (20240501, 12) (by decide +kernel)
    "h".toList (by decide +kernel) hours (.inl ⟨.inl rfl, rfl⟩) (fun _ => Nat.le_succ 1) (by intro h; cases h) ncOut
    ncOut_means (some "D".toList) (.inr ⟨_, rfl, rfl⟩)
  refine ⟨d, hd, ?_, hdesc.since, hdesc.unit⟩
  rw [hl, hp.length_eq]
  decide +kernel

/-- Its contents: `2`, `5` and `9` packed; the fill value outside; times in days. -/
example : ((ncIn none none none).dataset (fun _ => none) ncOut).toOption.map (fun d => d.map fun d =>
    (d.records.map (fun r => (r 0, r 1)), d.time.values, d.time.int)) =
    some (some ([(2, -32767), (8, -32767), (16, -32767)], [1 / 4, 1 / 2, 3 / 4], false)) := by decide +kernel

/-- C150: accumulation over 6 hours. -/
example : ∃ d : Dataset 2, (ncIn (some 12) none (some ⟨6, "accumulation", false, false⟩)).dataset (fun _ => none) ncOut =
    .ok (some d) ∧ d.records.length = 2 := by
  obtain ⟨d, times, hd, -, -, hget, hl, -⟩ := netcdf_accumulation_run (fun _ => none)
    (ncIn (some 12) none (some ⟨6, "accumulation", false, false⟩)) id (-9999) rfl (by decide +kernel) _ rfl rfl 6
    rfl (by decide) 18 rainH_last rainH_steps 12 18 rfl rfl _ rfl
    (fun h => absurd (congrArg List.length h) (by decide +kernel)) 10
    (by decide +kernel) (by decide +kernel) (by decide +kernel) (20240501, 12) (by decide +kernel) "h".toList
    (by decide +kernel) hours (.inl ⟨.inl rfl, rfl⟩) (fun _ => Nat.le_succ 1)
    (by
      rintro t ⟨j, rfl, hj⟩
      have hf : firstEnd 12 6 = 12 := rfl
      rw [hf] at hj ⊢
      have : j = 0 ∨ j = 1 := by omega
      rcases this with rfl | rfl
      · exact ⟨by decide +kernel, .inr (by decide +kernel)⟩
      · exact ⟨by decide +kernel, .inr (by decide +kernel)⟩) (by decide) (by intro h; cases h) ncOut ncOut_means
    (some "D".toList) (.inr ⟨_, rfl, rfl⟩)
  refine ⟨d, hd, ?_⟩
  rw [hl]
  have h1 : times[1]? = some 18 := (hget 1 18).2 (by decide)
  have h2 : ¬ (2 < times.length) := by
    intro h
    have := ((hget 2 times[2]).1 (List.getElem?_eq_getElem h))
    have hf : firstEnd 12 6 = 12 := rfl
    rw [hf] at this
    omega
  have := (List.getElem?_eq_some_iff.1 h1).1
  omega

/-- C150: averages over 6 hours. -/
def ncAvg : FileIn 2 2 :=
  { ncIn (some 12) none (some ⟨6, "average", false, false⟩) with
    file := rainH.map fun m => { m with stepType := "instant".toList, startStep := m.endStep } }

example : ∃ d : Dataset 2, ncAvg.dataset (fun _ => none) ncOut = .ok (some d) := by
  obtain ⟨d, times, hd, -⟩ := netcdf_average_run (fun _ => none) ncAvg id (-9999) rfl (by decide +kernel) _ rfl rfl rfl 6
    rfl (by decide) (by decide +kernel) 18
    ⟨⟨{ fmsg "tp" 0 18 7 9 with stepType := "instant".toList, startStep := 18, other := noonH },
      List.mem_map.2 ⟨{ fmsg "tp" 0 18 7 9 with other := noonH },
        List.mem_map.2 ⟨fmsg "tp" 0 18 7 9, by unfold rain; simp, rfl⟩, rfl⟩, by decide +kernel, rfl⟩, by decide +kernel⟩
    ⟨by decide +kernel, fun m hm => (by
      have := congrArg List.length hm
      have h3 : (ncAvg.file.filter (named ncAvg.sel)).length = 3 := by decide +kernel
      rw [h3] at this
      cases this)⟩ 12 18 rfl (by decide) rfl _ rfl 10 (by decide +kernel) (by decide +kernel) (by decide +kernel)
    (20240501, 12) (by decide +kernel) "h".toList (by decide +kernel) hours
    (.inl ⟨.inl rfl, rfl⟩) (fun _ => Nat.le_succ 1) (by decide +kernel) (by decide) (by intro h; cases h) ncOut ncOut_means
    (some "D".toList) (.inr ⟨_, rfl, rfl⟩)
  exact ⟨d, hd⟩

example : (ncAvg.dataset (fun _ => none) ncOut).toOption.map (fun d => d.map fun d =>
    (d.records.map (fun r => (r 0, r 1)), d.time.values)) =
    some (some ([(8, -32767), (16, -32767)], [1 / 2, 3 / 4])) := by decide +kernel

/-- C151: a scale factor that is no number; a clone without missing cells; no interval. -/
example : (ncIn none none none).dataset (fun _ => none) { ncOut with scaleFactor := .str "half".toList } =
    .error .valueError := by
  obtain ⟨files, hf⟩ : ∃ files, (ncIn none none none).pcraster (fun _ => none) = .ok files := by
    have : ((ncIn none none none).pcraster fun _ => none).toOption.isSome = true := by decide +kernel
    cases h : (ncIn none none none).pcraster fun _ => none with
    | error e => rw [h] at this; cases this
    | ok files => exact ⟨files, rfl⟩
  exact (((netcdf_refused _ _ { ncOut with scaleFactor := .str "half".toList } files hf "h".toList (by decide +kernel)).2
    hours).2 .i2 (.inr rfl)).1
    (by
      intro v hv
      simp only [List.mem_cons, List.not_mem_nil, or_false] at hv
      rcases hv with rfl | rfl
      · exact .inl ⟨_, rfl, by decide +kernel⟩
      · exact .inr ⟨1, .inl ⟨1, rfl, by norm_num⟩⟩)
    (by
      intro v hv
      simp only [List.mem_cons, List.not_mem_nil, or_false] at hv
      rcases hv with rfl | rfl <;> exact .inr ⟨none, .inl ⟨rfl, rfl⟩⟩)
    ⟨_, List.mem_cons_self, _, rfl, by decide +kernel⟩

example : ({ ncIn none none none with mask := none }.dataset (fun _ => none) ncOut).toOption.isSome = false := by
  decide +kernel

example : (ncIn (some 24) (some 20) (some ⟨24, "accumulation", false, false⟩)).pcraster (fun _ => none) = .ok [] ∧
    (ncIn (some 24) (some 20) (some ⟨24, "accumulation", false, false⟩)).dataset (fun _ => none) ncOut =
      .error .valueError :=
  netcdf_no_interval (fun _ => none) (ncIn (some 24) (some 20) (some ⟨24, "accumulation", false, false⟩)) id (-9999) rfl
    (by decide +kernel) _ rfl rfl 24 rfl (by decide) 18 rainH_last rainH_steps 24 20 rfl (by decide +kernel) _ rfl
    (fun h => absurd (congrArg List.length h) (by decide +kernel)) 10
    (by decide +kernel) (by decide +kernel) (by decide +kernel) (by decide +kernel) "h".toList
    (by decide +kernel) hours (.inl ⟨.inl rfl, rfl⟩) (fun _ => Nat.le_succ 1) (by decide) (by intro h; cases h) ncOut
    ncOut_means

end Demo
end PyG2P
