import Verif.Props.NetcdfTwo
import Verif.Props.TwoFileCommand
import Verif.Props.NetcdfKinds

/-! # C165, C166 — commands on two grids -/

namespace PyG2P
open ArgParse CommandRun
variable {n k : Nat}

/-- A data set that is made of two files is stored. -/
theorem CommandRun.netcdf_second_iff (ne : NumExpr) (s : Site n k) (items : List (Spec.Written × Str × JVal))
    (r : Spec.Request) (input2 : Str) (hcom : Spec.TwoFileCommand s items r input2) (hfmt : r.format = "netcdf".toList)
    (o : NcOut) (hnc : Spec.NcCommand s items r o) (set : Dataset k) :
    CommandRun.run ne s (Spec.argv items) = .stored set ↔
      (Spec.runOfTwo s r input2).datasetTwo ne (s.second input2).2 o = .ok (some set) := by
  obtain ⟨h, hcwd, hfile, ⟨hW, hK⟩, ⟨h2, hne2⟩, hacc⟩ := hcom
  obtain ⟨d, cmd, a, u, hp, hnoc, hdd, -, hlast, hread, hreq, hctx, hfile, hopt⟩ :=
    CommandRun.command_made s items r h hcwd hfile hW hK hacc
  have ho := nc_out s items r o hnc d cmd a u hlast hread hreq hopt
  have htext : asText d "inputFile2" = some input2 := by
    unfold asText; rw [hdd _ _ h2]
  have hgiven : given (asText d "inputFile2") = true := by
    rw [htext]
    cases input2 with
    | nil => exact absurd rfl hne2
    | cons c t => rfl
  unfold CommandRun.run
  rw [hp]
  dsimp only
  rw [hnoc, if_neg (by decide), hctx]
  dsimp only
  rw [if_pos hgiven, htext, if_neg (show ¬ (defined r (s.commands (Spec.located s.cwd cmd)) a).format = _ from
    fun h => absurd (hfmt.symm.trans (JVal.str.inj h)) (by decide)), hfile, ho]
  dsimp only
  rw [decide_eq_true (show (defined r (s.commands (Spec.located s.cwd cmd)) a).format = .str "netcdf".toList from
    congrArg JVal.str hfmt)]
  unfold CommandRun.netcdfSecond
  dsimp only
  change (match (Reader.gribInfo (Spec.runOfTwo s r input2).file (Spec.runOfTwo s r input2).reader
      (infoCmd (Spec.runOfTwo s r input2).sel)).1 with
    | .error e => _
    | .ok _ =>
      match (Spec.runOfTwo s r input2).settingsTwo (s.second input2).2 with
      | .error _ => _
      | .ok q =>
        match q.maps ne, (Spec.runOfTwo s r input2).firstSelected, true with
        | .ok ms, some m0, true =>
          match (Spec.runOfTwo s r input2).record o q m0 ms with
          | .error e => _
          | .ok none => _
          | .ok (some set) => _
        | _, _, _ => _) = _ ↔ _
  generalize Spec.runOfTwo s r input2 = x
  unfold FileIn.datasetTwo
  cases hset : x.settingsTwo (s.second input2).2 with
  | error e =>
    dsimp only
    refine ⟨fun h => ?_, fun h => by cases h⟩
    cases hg : (Reader.gribInfo x.file x.reader (infoCmd x.sel)).1 <;> rw [hg] at h <;> cases h
  | ok q =>
    dsimp only
    have hi : ∃ info, (Reader.gribInfo x.file x.reader (infoCmd x.sel)).1 = .ok info := by
      unfold FileIn.settingsTwo at hset
      cases hg : Reader.gribInfo x.file x.reader (infoCmd x.sel) with
      | mk i r1 =>
        rw [hg] at hset
        cases i with
        | error e => cases hset
        | ok info => exact ⟨info, rfl⟩
    obtain ⟨info, hi⟩ := hi
    rw [hi]
    dsimp only
    cases hm : q.maps ne with
    | error e => exact ⟨(by intro h; cases h), (by intro h; cases h)⟩
    | ok ms =>
      dsimp only
      cases h0 : x.firstSelected with
      | none => exact ⟨(by intro h; cases h), (by intro h; cases h)⟩
      | some m0 =>
        dsimp only
        cases x.record o q m0 ms with
        | error e => exact ⟨(by intro h; cases h), (by intro h; cases h)⟩
        | ok c =>
          cases c with
          | none => exact ⟨(by intro h; cases h), (by intro h; cases h)⟩
          | some y =>
            constructor
            · intro h
              injection h with h
              rw [h]
            · intro h
              injection h with h
              injection h with h
              rw [h]

theorem CommandRun.netcdf_second_stored (ne : NumExpr) (s : Site n k) (items : List (Spec.Written × Str × JVal))
    (r : Spec.Request) (input2 : Str) (hcom : Spec.TwoFileCommand s items r input2) (hfmt : r.format = "netcdf".toList)
    (o : NcOut) (hnc : Spec.NcCommand s items r o) (set : Dataset k)
    (hd : (Spec.runOfTwo s r input2).datasetTwo ne (s.second input2).2 o = .ok (some set)) :
    CommandRun.run ne s (Spec.argv items) = .stored set :=
  (CommandRun.netcdf_second_iff ne s items r input2 hcom hfmt o hnc set).2 hd

open Spec TableApply Converter Aggregator

/-- **C165**, accumulation: a command on a file whose grid changes (C162) writes the maps of both grids to the output
folder, numbered through, and ends with status 0. -/
theorem command_change_accumulation_run (ne : NumExpr) (s : Site n k) (items : List (Spec.Written × Str × JVal))
    (r : Spec.Request) (hcom : Spec.Command s items r)
    (hfmt : r.format = "pcraster".toList) (hpre : r.namePrefix ≠ [] ∧ r.namePrefix.head? ≠ some '/')
    (f : Num → Num) (mv : ℚ) (file : List (GMsg (Arr n))) (hfile : s.grib r.input = (file, true))
    (hup : r.shortName.map Char.toUpper ≠ r.shortName) (a : Int) (half forced : Bool)
    (hagg : r.aggr = some ⟨a, "accumulation", half, forced⟩) (hpos : 0 < a)
    (p : SelPar) (hp : p = ⟨r.shortName, r.level, r.dataTime, r.dataDate, r.member⟩)
    (hsame : ∀ w ∈ file, asksFor p w = true → w.shortName = r.shortName)
    (E : Int) (hE : Spec.LastStep file p E) (hreg : Spec.StepsDiffer file p) (start hi : Int)
    (hst : start = r.tstart.getD 0) (hhi : hi = Spec.windowEnd r.tend E)
    (sel l1 l2 : List (GMsg (Arr n))) (c : GMsg (Arr n)) (hsel : sel = Spec.taken file p (max 0 (start - a)) hi)
    (hch : GridChange sel l1 l2 c) (hd1 : (l1.map GMsg.endStep).Nodup) (hd2 : (l2.map GMsg.endStep).Nodup)
    (hmv : ∀ q ∈ sel, q.missingValue = .fin mv) (hdate : ∀ q ∈ sel, (reference q).isSome = true)
    (hconv : Means ne (r.conversion.map fun c => some c.1) f)
    (t : Table k) (ht : t = (s.tables r.mode r.latMap r.lonMap r.input).1) (hfit : Fits t n)
    (t2 : Table k) (ht2 : t2 = (s.tables r.mode r.latMap r.lonMap r.input).2) (hfit2 : Fits t2 n)
    (hse : c.startStep ≤ c.endStep) (h0 : 0 ≤ c.endStep) (hend : c.endStep + a < hi)
    (hcur : ∀ t, InRange (firstEnd start a) c.startStep a t →
      (∃ q ∈ l1, q.endStep = t) ∧ (t - a = 0 ∨ ∃ q ∈ l1, q.endStep = t - a))
    (hcur2 : ∀ t, InRange (c.endStep + a) hi a t →
      (∃ q ∈ l2, q.endStep = t) ∧ (t - a = 0 ∨ ∃ q ∈ l2, q.endStep = t - a)) :
    ∃ files n1 n2, CommandRun.run ne s (Spec.argv items) = .ended (.ok 0) files ∧ files.length = n1 + n2 ∧
      (∀ j : Nat, j < n1 ↔ firstEnd start a + j * a ≤ c.startStep) ∧
      (∀ j : Nat, j < n2 ↔ c.endStep + a + j * a ≤ hi) ∧
      (∀ (j : Nat) w, w = firstEnd start a + j * a → w ≤ c.startStep →
        ∃ D, AccumulatedFrom mv f l1 forced r.unitTime a w D ∧
          files[j]? = some (Spec.folder r.outDir ++ pcrName r.namePrefix r.fmap r.ext (j + 1), fun i =>
            shown (s.clone r.clone).1 (s.clone r.clone).2
              (finalCell (r.correction.map fun q => (s.heights q.1 q.2.1 q.2.2).1) (cellOf t (s.mvOf r.latMap)
                (Spec.cutField ((r.conversion.map Prod.snd).getD false) D) i) i) i)) ∧
      ∀ (j : Nat) w, w = c.endStep + a + j * a → w ≤ hi →
        ∃ D, AccumulatedFrom mv f l2 forced r.unitTime a w D ∧
          files[n1 + j]? = some (Spec.folder r.outDir ++ pcrName r.namePrefix r.fmap r.ext ((n1 : Int) + j + 1), fun i =>
            shown (s.clone r.clone).1 (s.clone r.clone).2
              (finalCell (r.correction.map fun q => (s.heights q.1 q.2.1 q.2.2).2) (cellOf t2 (s.mvOf r.latMap)
                (Spec.cutField ((r.conversion.map Prod.snd).getD false) D) i) i) i) := by
  subst hp ht ht2
  have e1 : (Spec.runOf s r).file = file := congrArg Prod.fst hfile
  have e2 : (Spec.runOf s r).indexable = true := congrArg Prod.snd hfile
  have hcut : ((Spec.runOf s r).conversion.isSome && (Spec.runOf s r).cutOff) =
      (r.conversion.map Prod.snd).getD false := CommandRun.cut_of s r
  obtain ⟨files, n1, n2, h1, h2, h3, h4, h5, h6⟩ := change_accumulation_run ne (Spec.runOf s r) f mv e2 hup (by rw [e1]; exact hsame) _ hagg rfl a rfl hpos E
    (by rw [e1]; exact hE) (by rw [e1]; exact hreg) start hi hst hhi sel l1 l2 c (by rw [e1]; exact hsel) hch hd1 hd2
    hmv hdate hconv hfit hfit2 hse h0 hend hcur hcur2
  refine ⟨(files.map fun p => (Spec.inFolder r.outDir p.1, p.2)), n1, n2, ?_, ?_, h3, h4, ?_, ?_⟩
  · rw [command_settings ne s items r hcom hfmt, h1]
  · rw [List.length_map]; exact h2
  · intro j w hw hle
    obtain ⟨D, g1, g2⟩ := h5 j w hw hle
    refine ⟨D, g1, ?_⟩
    rw [List.getElem?_map, g2, hcut]
    show some (Spec.inFolder r.outDir (pcrName r.namePrefix r.fmap r.ext (j + 1)), _) = _
    rw [CommandRun.map_place _ _ _ _ _ hpre.1 hpre.2]
    rfl
  · intro j w hw hle
    obtain ⟨D, g1, g2⟩ := h6 j w hw hle
    refine ⟨D, g1, ?_⟩
    rw [List.getElem?_map, g2, hcut]
    show some (Spec.inFolder r.outDir (pcrName r.namePrefix r.fmap r.ext ((n1 : Int) + j + 1)), _) = _
    rw [CommandRun.map_place _ _ _ _ _ hpre.1 hpre.2]
    rfl

/-- **C165**, average (without half weights, from a start different from 0, of messages that are not accumulated). -/
theorem command_change_average_run (ne : NumExpr) (s : Site n k) (items : List (Spec.Written × Str × JVal))
    (r : Spec.Request) (hcom : Spec.Command s items r)
    (hfmt : r.format = "pcraster".toList) (hpre : r.namePrefix ≠ [] ∧ r.namePrefix.head? ≠ some '/')
    (f : Num → Num) (mv : ℚ) (file : List (GMsg (Arr n))) (hfile : s.grib r.input = (file, true))
    (hup : r.shortName.map Char.toUpper ≠ r.shortName) (a : Int) (forced : Bool)
    (hagg : r.aggr = some ⟨a, "average", false, forced⟩) (hpos : 0 < a)
    (hinst : ∀ q ∈ file, String.ofList q.stepType ≠ "accum")
    (p : SelPar) (hp : p = ⟨r.shortName, r.level, r.dataTime, r.dataDate, r.member⟩)
    (hsame : ∀ w ∈ file, asksFor p w = true → w.shortName = r.shortName)
    (E : Int) (hE : Spec.LastStep file p E) (hreg : Spec.StepsDiffer file p) (start hi : Int)
    (hst : start = r.tstart.getD 0) (hstart : start ≠ 0) (hhi : hi = Spec.windowEnd r.tend E)
    (sel l1 l2 : List (GMsg (Arr n))) (c : GMsg (Arr n)) (hsel : sel = Spec.taken file p (max 0 (start - a)) hi)
    (hch : GridChange sel l1 l2 c) (hd1 : (l1.map GMsg.endStep).Nodup) (hd2 : (l2.map GMsg.endStep).Nodup)
    (hmv : ∀ q ∈ sel, q.missingValue = .fin mv) (hdate : ∀ q ∈ sel, (reference q).isSome = true)
    (hconv : Means ne (r.conversion.map fun c => some c.1) f)
    (t : Table k) (ht : t = (s.tables r.mode r.latMap r.lonMap r.input).1) (hfit : Fits t n)
    (t2 : Table k) (ht2 : t2 = (s.tables r.mode r.latMap r.lonMap r.input).2) (hfit2 : Fits t2 n)
    (hse : c.startStep ≤ c.endStep) (h0 : 0 ≤ c.endStep) (hend : c.endStep + a < hi)
    (hex : ∃ q ∈ l1, c.startStep ≤ q.endStep) (hex2 : ∃ q ∈ l2, hi ≤ q.endStep) :
    ∃ files n1 n2, CommandRun.run ne s (Spec.argv items) = .ended (.ok 0) files ∧ files.length = n1 + n2 ∧
      (∀ j : Nat, j < n1 ↔ start + j * a ≤ c.startStep) ∧
      (∀ j : Nat, j < n2 ↔ c.endStep + a + j * a ≤ hi) ∧
      (∀ (j : Nat) w, w = start + j * a → w ≤ c.startStep →
        ∃ D, MeanFrom mv f l1 a w D ∧
          files[j]? = some (Spec.folder r.outDir ++ pcrName r.namePrefix r.fmap r.ext (j + 1), fun i =>
            shown (s.clone r.clone).1 (s.clone r.clone).2
              (finalCell (r.correction.map fun q => (s.heights q.1 q.2.1 q.2.2).1) (cellOf t (s.mvOf r.latMap)
                (Spec.cutField ((r.conversion.map Prod.snd).getD false) D) i) i) i)) ∧
      ∀ (j : Nat) w, w = c.endStep + a + j * a → w ≤ hi →
        ∃ D, MeanFrom mv f l2 a w D ∧
          files[n1 + j]? = some (Spec.folder r.outDir ++ pcrName r.namePrefix r.fmap r.ext ((n1 : Int) + j + 1), fun i =>
            shown (s.clone r.clone).1 (s.clone r.clone).2
              (finalCell (r.correction.map fun q => (s.heights q.1 q.2.1 q.2.2).2) (cellOf t2 (s.mvOf r.latMap)
                (Spec.cutField ((r.conversion.map Prod.snd).getD false) D) i) i) i) := by
  subst hp ht ht2
  have e1 : (Spec.runOf s r).file = file := congrArg Prod.fst hfile
  have e2 : (Spec.runOf s r).indexable = true := congrArg Prod.snd hfile
  have hcut : ((Spec.runOf s r).conversion.isSome && (Spec.runOf s r).cutOff) =
      (r.conversion.map Prod.snd).getD false := CommandRun.cut_of s r
  obtain ⟨files, n1, n2, h1, h2, h3, h4, h5, h6⟩ := change_average_run ne (Spec.runOf s r) f mv e2 hup (by rw [e1]; exact hsame) _ hagg rfl rfl a rfl hpos (by rw [e1]; exact hinst) E
    (by rw [e1]; exact hE) (by rw [e1]; exact hreg) start hi hst hstart hhi sel l1 l2 c (by rw [e1]; exact hsel) hch hd1 hd2
    hmv hdate hconv hfit hfit2 hse h0 hend hex hex2
  refine ⟨(files.map fun p => (Spec.inFolder r.outDir p.1, p.2)), n1, n2, ?_, ?_, h3, h4, ?_, ?_⟩
  · rw [command_settings ne s items r hcom hfmt, h1]
  · rw [List.length_map]; exact h2
  · intro j w hw hle
    obtain ⟨D, g1, g2⟩ := h5 j w hw hle
    refine ⟨D, g1, ?_⟩
    rw [List.getElem?_map, g2, hcut]
    show some (Spec.inFolder r.outDir (pcrName r.namePrefix r.fmap r.ext (j + 1)), _) = _
    rw [CommandRun.map_place _ _ _ _ _ hpre.1 hpre.2]
    rfl
  · intro j w hw hle
    obtain ⟨D, g1, g2⟩ := h6 j w hw hle
    refine ⟨D, g1, ?_⟩
    rw [List.getElem?_map, g2, hcut]
    show some (Spec.inFolder r.outDir (pcrName r.namePrefix r.fmap r.ext ((n1 : Int) + j + 1)), _) = _
    rw [CommandRun.map_place _ _ _ _ _ hpre.1 hpre.2]
    rfl

/-- **C165**, accumulation with netCDF output (C163). -/
theorem command_change_netcdf_accumulation (ne : NumExpr) (s : Site n k) (items : List (Spec.Written × Str × JVal))
    (r : Spec.Request) (hcom : Spec.Command s items r)
    (hfmt : r.format = "netcdf".toList) (o : NcOut) (hnc : Spec.NcCommand s items r o) {fmt : ValueFormat}
    {scale offset : ℚ} {lo up : Option ℚ} (ho : NcMeans o fmt scale offset lo up) (req : Option Str)
    (hreq : unitAsked o.stepUnits req)
    (f : Num → Num) (mv : ℚ) (file : List (GMsg (Arr n))) (hfile : s.grib r.input = (file, true))
    (hup : r.shortName.map Char.toUpper ≠ r.shortName) (a : Int) (half forced : Bool)
    (hagg : r.aggr = some ⟨a, "accumulation", half, forced⟩) (hpos : 0 < a)
    (p : SelPar) (hp : p = ⟨r.shortName, r.level, r.dataTime, r.dataDate, r.member⟩)
    (hsame : ∀ w ∈ file, asksFor p w = true → w.shortName = r.shortName)
    (E : Int) (hE : Spec.LastStep file p E) (hreg : Spec.StepsDiffer file p) (start hi : Int)
    (hst : start = r.tstart.getD 0) (hhi : hi = Spec.windowEnd r.tend E)
    (sel l1 l2 : List (GMsg (Arr n))) (c : GMsg (Arr n)) (hsel : sel = Spec.taken file p (max 0 (start - a)) hi)
    (hch : GridChange sel l1 l2 c) (hd1 : (l1.map GMsg.endStep).Nodup) (hd2 : (l2.map GMsg.endStep).Nodup)
    (hmv : ∀ q ∈ sel, q.missingValue = .fin mv) (ref : Int × Nat) (href : ∀ q ∈ sel, reference q = some ref)
    (u : Str) (hu : ∀ q ∈ sel, q.get? "stepUnits".toList = some (.str u)) (hk : ∃ name, (u, name) ∈ gribUnits)
    (hconv : Means ne (r.conversion.map fun c => some c.1) f)
    (t : Table k) (ht : t = (s.tables r.mode r.latMap r.lonMap r.input).1) (hfit : Fits t n)
    (t2 : Table k) (ht2 : t2 = (s.tables r.mode r.latMap r.lonMap r.input).2) (hfit2 : Fits t2 n)
    (hse : c.startStep ≤ c.endStep) (h0 : 0 ≤ c.endStep) (hend : c.endStep + a < hi)
    (hcur : ∀ t, InRange (firstEnd start a) c.startStep a t →
      (∃ q ∈ l1, q.endStep = t) ∧ (t - a = 0 ∨ ∃ q ∈ l1, q.endStep = t - a))
    (hcur2 : ∀ t, InRange (c.endStep + a) hi a t →
      (∃ q ∈ l2, q.endStep = t) ∧ (t - a = 0 ∨ ∃ q ∈ l2, q.endStep = t - a))
    (mask : Fin k → Bool) (hmask : (s.clone r.clone).1 = some mask) :
    ∃ (d : Dataset k) (times : List Int) (n1 n2 : Nat), CommandRun.run ne s (Spec.argv items) = .stored d ∧
      Describes d o r.namePrefix ref fmt scale offset lo up ∧ TimesIn u req times d.time ∧
      times.length = n1 + n2 ∧ d.records.length = n1 + n2 ∧
      (∀ j : Nat, j < n1 ↔ firstEnd start a + j * a ≤ c.startStep) ∧
      (∀ j : Nat, j < n2 ↔ c.endStep + a + j * a ≤ hi) ∧
      (∀ (j : Nat) w, w = firstEnd start a + j * a → w ≤ c.startStep → times[j]? = some w ∧
        ∃ D rec, AccumulatedFrom mv f l1 forced r.unitTime a w D ∧ d.records[j]? = some rec ∧
          ∀ i V, V = finalCell (r.correction.map fun q => (s.heights q.1 q.2.1 q.2.2).1) (cellOf t (s.mvOf r.latMap)
              (Spec.cutField ((r.conversion.map Prod.snd).getD false) D) i) i →
            Shows d lo up (mask i = true ∨ V = s.mvOf r.latMap) V (rec i)) ∧
      ∀ (j : Nat) w, w = c.endStep + a + j * a → w ≤ hi → times[n1 + j]? = some w ∧
        ∃ D rec, AccumulatedFrom mv f l2 forced r.unitTime a w D ∧ d.records[n1 + j]? = some rec ∧
          ∀ i V, V = finalCell (r.correction.map fun q => (s.heights q.1 q.2.1 q.2.2).2) (cellOf t2 (s.mvOf r.latMap)
              (Spec.cutField ((r.conversion.map Prod.snd).getD false) D) i) i →
            Shows d lo up (mask i = true ∨ V = s.mvOf r.latMap) V (rec i) := by
  subst hp ht ht2
  have e1 : (Spec.runOf s r).file = file := congrArg Prod.fst hfile
  have e2 : (Spec.runOf s r).indexable = true := congrArg Prod.snd hfile
  have e3 : (Spec.runOf s r).mask = some mask := hmask
  have hcut : ((Spec.runOf s r).conversion.isSome && (Spec.runOf s r).cutOff) =
      (r.conversion.map Prod.snd).getD false := CommandRun.cut_of s r
  obtain ⟨d, times, n1, n2, h1, h2, h3, h4, h5, h6, h7, h8, h9⟩ := change_netcdf_accumulation ne (Spec.runOf s r) f mv e2 hup (by rw [e1]; exact hsame) _ hagg rfl a rfl hpos E
    (by rw [e1]; exact hE) (by rw [e1]; exact hreg) start hi hst hhi sel l1 l2 c (by rw [e1]; exact hsel) hch hd1 hd2
    hmv ref href u hu hk hconv hfit hfit2 hse h0 hend hcur hcur2 (by rw [e3]; intro h; cases h) o ho req hreq
  refine ⟨d, times, n1, n2, ?_, h2, h3, h4, h5, h6, h7, ?_, ?_⟩
  · rw [CommandRun.netcdf_core ne s items r hcom (by rw [hfmt]; decide) o hnc, decide_eq_true hfmt]
    exact CommandRun.netcdf_stored ne _ o d h1
  · intro j w hw hle
    obtain ⟨g1, D, rec, g2, g3, g4⟩ := h8 j w hw hle
    refine ⟨g1, D, rec, g2, g3, fun i V hV => ?_⟩
    have := g4 i V (by rw [hcut]; exact hV)
    rw [e3] at this
    exact this
  · intro j w hw hle
    obtain ⟨g1, D, rec, g2, g3, g4⟩ := h9 j w hw hle
    refine ⟨g1, D, rec, g2, g3, fun i V hV => ?_⟩
    have := g4 i V (by rw [hcut]; exact hV)
    rw [e3] at this
    exact this

/-- **C165**, average with netCDF output (C163). -/
theorem command_change_netcdf_average (ne : NumExpr) (s : Site n k) (items : List (Spec.Written × Str × JVal))
    (r : Spec.Request) (hcom : Spec.Command s items r)
    (hfmt : r.format = "netcdf".toList) (o : NcOut) (hnc : Spec.NcCommand s items r o) {fmt : ValueFormat}
    {scale offset : ℚ} {lo up : Option ℚ} (ho : NcMeans o fmt scale offset lo up) (req : Option Str)
    (hreq : unitAsked o.stepUnits req)
    (f : Num → Num) (mv : ℚ) (file : List (GMsg (Arr n))) (hfile : s.grib r.input = (file, true))
    (hup : r.shortName.map Char.toUpper ≠ r.shortName) (a : Int) (forced : Bool)
    (hagg : r.aggr = some ⟨a, "average", false, forced⟩) (hpos : 0 < a)
    (hinst : ∀ q ∈ file, String.ofList q.stepType ≠ "accum")
    (p : SelPar) (hp : p = ⟨r.shortName, r.level, r.dataTime, r.dataDate, r.member⟩)
    (hsame : ∀ w ∈ file, asksFor p w = true → w.shortName = r.shortName)
    (E : Int) (hE : Spec.LastStep file p E) (hreg : Spec.StepsDiffer file p) (start hi : Int)
    (hst : start = r.tstart.getD 0) (hstart : start ≠ 0) (hhi : hi = Spec.windowEnd r.tend E)
    (sel l1 l2 : List (GMsg (Arr n))) (c : GMsg (Arr n)) (hsel : sel = Spec.taken file p (max 0 (start - a)) hi)
    (hch : GridChange sel l1 l2 c) (hd1 : (l1.map GMsg.endStep).Nodup) (hd2 : (l2.map GMsg.endStep).Nodup)
    (hmv : ∀ q ∈ sel, q.missingValue = .fin mv) (ref : Int × Nat) (href : ∀ q ∈ sel, reference q = some ref)
    (u : Str) (hu : ∀ q ∈ sel, q.get? "stepUnits".toList = some (.str u)) (hk : ∃ name, (u, name) ∈ gribUnits)
    (hconv : Means ne (r.conversion.map fun c => some c.1) f)
    (t : Table k) (ht : t = (s.tables r.mode r.latMap r.lonMap r.input).1) (hfit : Fits t n)
    (t2 : Table k) (ht2 : t2 = (s.tables r.mode r.latMap r.lonMap r.input).2) (hfit2 : Fits t2 n)
    (hse : c.startStep ≤ c.endStep) (h0 : 0 ≤ c.endStep) (hend : c.endStep + a < hi)
    (hex : ∃ q ∈ l1, c.startStep ≤ q.endStep) (hex2 : ∃ q ∈ l2, hi ≤ q.endStep)
    (mask : Fin k → Bool) (hmask : (s.clone r.clone).1 = some mask) :
    ∃ (d : Dataset k) (times : List Int) (n1 n2 : Nat), CommandRun.run ne s (Spec.argv items) = .stored d ∧
      Describes d o r.namePrefix ref fmt scale offset lo up ∧ TimesIn u req times d.time ∧
      times.length = n1 + n2 ∧ d.records.length = n1 + n2 ∧
      (∀ j : Nat, j < n1 ↔ start + j * a ≤ c.startStep) ∧
      (∀ j : Nat, j < n2 ↔ c.endStep + a + j * a ≤ hi) ∧
      (∀ (j : Nat) w, w = start + j * a → w ≤ c.startStep → times[j]? = some w ∧
        ∃ D rec, MeanFrom mv f l1 a w D ∧ d.records[j]? = some rec ∧
          ∀ i V, V = finalCell (r.correction.map fun q => (s.heights q.1 q.2.1 q.2.2).1) (cellOf t (s.mvOf r.latMap)
              (Spec.cutField ((r.conversion.map Prod.snd).getD false) D) i) i →
            Shows d lo up (mask i = true ∨ V = s.mvOf r.latMap) V (rec i)) ∧
      ∀ (j : Nat) w, w = c.endStep + a + j * a → w ≤ hi → times[n1 + j]? = some w ∧
        ∃ D rec, MeanFrom mv f l2 a w D ∧ d.records[n1 + j]? = some rec ∧
          ∀ i V, V = finalCell (r.correction.map fun q => (s.heights q.1 q.2.1 q.2.2).2) (cellOf t2 (s.mvOf r.latMap)
              (Spec.cutField ((r.conversion.map Prod.snd).getD false) D) i) i →
            Shows d lo up (mask i = true ∨ V = s.mvOf r.latMap) V (rec i) := by
  subst hp ht ht2
  have e1 : (Spec.runOf s r).file = file := congrArg Prod.fst hfile
  have e2 : (Spec.runOf s r).indexable = true := congrArg Prod.snd hfile
  have e3 : (Spec.runOf s r).mask = some mask := hmask
  have hcut : ((Spec.runOf s r).conversion.isSome && (Spec.runOf s r).cutOff) =
      (r.conversion.map Prod.snd).getD false := CommandRun.cut_of s r
  obtain ⟨d, times, n1, n2, h1, h2, h3, h4, h5, h6, h7, h8, h9⟩ := change_netcdf_average ne (Spec.runOf s r) f mv e2 hup (by rw [e1]; exact hsame) _ hagg rfl rfl a rfl hpos (by rw [e1]; exact hinst) E
    (by rw [e1]; exact hE) (by rw [e1]; exact hreg) start hi hst hstart hhi sel l1 l2 c (by rw [e1]; exact hsel) hch hd1 hd2
    hmv ref href u hu hk hconv hfit hfit2 hse h0 hend hex hex2 (by rw [e3]; intro h; cases h) o ho req hreq
  refine ⟨d, times, n1, n2, ?_, h2, h3, h4, h5, h6, h7, ?_, ?_⟩
  · rw [CommandRun.netcdf_core ne s items r hcom (by rw [hfmt]; decide) o hnc, decide_eq_true hfmt]
    exact CommandRun.netcdf_stored ne _ o d h1
  · intro j w hw hle
    obtain ⟨g1, D, rec, g2, g3, g4⟩ := h8 j w hw hle
    refine ⟨g1, D, rec, g2, g3, fun i V hV => ?_⟩
    have := g4 i V (by rw [hcut]; exact hV)
    rw [e3] at this
    exact this
  · intro j w hw hle
    obtain ⟨g1, D, rec, g2, g3, g4⟩ := h9 j w hw hle
    refine ⟨g1, D, rec, g2, g3, fun i V hV => ?_⟩
    have := g4 i V (by rw [hcut]; exact hV)
    rw [e3] at this
    exact this

/-- **C166**, accumulation: a command with two input files and netCDF output stores the data set of C164. -/
theorem two_file_command_netcdf_accumulation (ne : NumExpr) (s : Site n k) (items : List (Spec.Written × Str × JVal))
    (r : Spec.Request) (input2 : Str) (hcom : Spec.TwoFileCommand s items r input2)
    (hfmt : r.format = "netcdf".toList) (o : NcOut) (hnc : Spec.NcCommand s items r o) {fmt : ValueFormat}
    {scale offset : ℚ} {lo up : Option ℚ} (ho : NcMeans o fmt scale offset lo up) (req : Option Str)
    (hreq : unitAsked o.stepUnits req)
    (f : Num → Num) (mv : ℚ) (file : List (GMsg (Arr n))) (hfile : s.grib r.input = (file, true))
    {m : Nat} (file2 : List (GMsg (Arr m))) (hfile2 : s.second input2 = ⟨m, ⟨file2, true⟩⟩)
    (hup : r.shortName.map Char.toUpper ≠ r.shortName) (a : Int) (half forced : Bool)
    (hagg : r.aggr = some ⟨a, "accumulation", half, forced⟩) (hpos : 0 < a)
    (p : SelPar) (hp : p = ⟨r.shortName, r.level, r.dataTime, r.dataDate, r.member⟩)
    (E : Int) (hE : Spec.LastStep file p E) (hreg : Spec.StepsDiffer file p) (start hi : Int)
    (hst : start = r.tstart.getD 0) (hhi : hi = Spec.windowEnd r.tend E)
    (sel : List (GMsg (Arr n))) (hsel : sel = Spec.taken file p (max 0 (start - a)) hi) (hne : sel ≠ [])
    (sel2 : List (GMsg (Arr m))) (hsel2 : sel2 = Spec.taken file2 p (max 0 (start - a)) hi)
    (nj : Int) (hnj : ∀ q ∈ sel, q.nj = nj) (hdiff : (sel.map GMsg.endStep).Nodup)
    (nj2 : Int) (hnj2 : ∀ q ∈ sel2, q.nj = nj2) (hdiff2 : (sel2.map GMsg.endStep).Nodup)
    (hmv : ∀ q ∈ sel, q.missingValue = .fin mv) (ref : Int × Nat) (href : ∀ q ∈ sel, reference q = some ref)
    (u : Str) (hu : ∀ q ∈ sel, q.get? "stepUnits".toList = some (.str u)) (hk : ∃ name, (u, name) ∈ gribUnits)
    (hdate2 : ∀ q ∈ sel2, (reference q).isSome = true)
    (hconv : Means ne (r.conversion.map fun c => some c.1) f)
    (t : Table k) (ht : t = (s.tables r.mode r.latMap r.lonMap r.input).1) (hfit : Fits t n)
    (t2 : Table k) (ht2 : t2 = (s.tables r.mode r.latMap r.lonMap input2).1) (hfit2 : Fits t2 m)
    (c : GMsg (Arr m)) (hc : c ∈ sel2) (hcmin : ∀ q ∈ sel2, c.endStep ≤ q.endStep)
    (hse : c.startStep ≤ c.endStep) (h0 : 0 ≤ c.endStep) (hend : c.endStep + a < hi)
    (hcur : ∀ t, InRange (firstEnd start a) c.startStep a t →
      (∃ q ∈ sel, q.endStep = t) ∧ (t - a = 0 ∨ ∃ q ∈ sel, q.endStep = t - a))
    (hcur2 : ∀ t, InRange (c.endStep + a) hi a t →
      (∃ q ∈ sel2, q.endStep = t) ∧ (t - a = 0 ∨ ∃ q ∈ sel2, q.endStep = t - a))
    (mask : Fin k → Bool) (hmask : (s.clone r.clone).1 = some mask) :
    ∃ (d : Dataset k) (times : List Int) (n1 n2 : Nat), CommandRun.run ne s (Spec.argv items) = .stored d ∧
      Describes d o r.namePrefix ref fmt scale offset lo up ∧ TimesIn u req times d.time ∧
      times.length = n1 + n2 ∧ d.records.length = n1 + n2 ∧
      (∀ j : Nat, j < n1 ↔ firstEnd start a + j * a ≤ c.startStep) ∧
      (∀ j : Nat, j < n2 ↔ c.endStep + a + j * a ≤ hi) ∧
      (∀ (j : Nat) w, w = firstEnd start a + j * a → w ≤ c.startStep → times[j]? = some w ∧
        ∃ D rec, AccumulatedFrom mv f sel forced r.unitTime a w D ∧ d.records[j]? = some rec ∧
          ∀ i V, V = finalCell (r.correction.map fun q => (s.heights q.1 q.2.1 q.2.2).1) (cellOf t (s.mvOf r.latMap)
              (Spec.cutField ((r.conversion.map Prod.snd).getD false) D) i) i →
            Shows d lo up (mask i = true ∨ V = s.mvOf r.latMap) V (rec i)) ∧
      ∀ (j : Nat) w, w = c.endStep + a + j * a → w ≤ hi → times[n1 + j]? = some w ∧
        ∃ D rec, AccumulatedFrom mv f sel2 forced r.unitTime a w D ∧ d.records[n1 + j]? = some rec ∧
          ∀ i V, V = finalCell (r.correction.map fun q => (s.heights q.1 q.2.1 q.2.2).2) (cellOf t2 (s.mvOf r.latMap)
              (Spec.cutField ((r.conversion.map Prod.snd).getD false) D) i) i →
            Shows d lo up (mask i = true ∨ V = s.mvOf r.latMap) V (rec i) := by
  subst hp ht ht2
  have e1 : (Spec.runOfTwo s r input2).file = file := congrArg Prod.fst hfile
  have e2 : (Spec.runOfTwo s r input2).indexable = true := congrArg Prod.snd hfile
  have e3 : (Spec.runOfTwo s r input2).mask = some mask := hmask
  have hcut : ((Spec.runOfTwo s r input2).conversion.isSome && (Spec.runOfTwo s r input2).cutOff) =
      (r.conversion.map Prod.snd).getD false := CommandRun.cut_of s r
  obtain ⟨d, times, n1, n2, h1, h2, h3, h4, h5, h6, h7, h8, h9⟩ := two_file_netcdf_accumulation ne (Spec.runOfTwo s r input2) ⟨file2, true⟩ f mv e2 rfl hup _ hagg rfl a rfl hpos E
    (by rw [e1]; exact hE) (by rw [e1]; exact hreg) start hi hst hhi sel (by rw [e1]; exact hsel) hne sel2 hsel2 nj hnj
    hdiff nj2 hnj2 hdiff2 hmv ref href u hu hk hdate2 hconv hfit hfit2 c hc hcmin hse h0 hend hcur hcur2 (by rw [e3]; intro h; cases h) o ho req hreq
  refine ⟨d, times, n1, n2, ?_, h2, h3, h4, h5, h6, h7, ?_, ?_⟩
  · have hd : (Spec.runOfTwo s r input2).datasetTwo ne (s.second input2).2 o = .ok (some d) := by rw [hfile2]; exact h1
    exact CommandRun.netcdf_second_stored ne s items r input2 hcom hfmt o hnc d hd
  · intro j w hw hle
    obtain ⟨g1, D, rec, g2, g3, g4⟩ := h8 j w hw hle
    refine ⟨g1, D, rec, g2, g3, fun i V hV => ?_⟩
    have := g4 i V (by rw [hcut]; exact hV)
    rw [e3] at this
    exact this
  · intro j w hw hle
    obtain ⟨g1, D, rec, g2, g3, g4⟩ := h9 j w hw hle
    refine ⟨g1, D, rec, g2, g3, fun i V hV => ?_⟩
    have := g4 i V (by rw [hcut]; exact hV)
    rw [e3] at this
    exact this

/-- **C166**, average. -/
theorem two_file_command_netcdf_average (ne : NumExpr) (s : Site n k) (items : List (Spec.Written × Str × JVal))
    (r : Spec.Request) (input2 : Str) (hcom : Spec.TwoFileCommand s items r input2)
    (hfmt : r.format = "netcdf".toList) (o : NcOut) (hnc : Spec.NcCommand s items r o) {fmt : ValueFormat}
    {scale offset : ℚ} {lo up : Option ℚ} (ho : NcMeans o fmt scale offset lo up) (req : Option Str)
    (hreq : unitAsked o.stepUnits req)
    (f : Num → Num) (mv : ℚ) (file : List (GMsg (Arr n))) (hfile : s.grib r.input = (file, true))
    {m : Nat} (file2 : List (GMsg (Arr m))) (hfile2 : s.second input2 = ⟨m, ⟨file2, true⟩⟩)
    (hup : r.shortName.map Char.toUpper ≠ r.shortName) (a : Int) (forced : Bool)
    (hagg : r.aggr = some ⟨a, "average", false, forced⟩) (hpos : 0 < a)
    (hinst : ∀ q ∈ file, String.ofList q.stepType ≠ "accum")
    (p : SelPar) (hp : p = ⟨r.shortName, r.level, r.dataTime, r.dataDate, r.member⟩)
    (E : Int) (hE : Spec.LastStep file p E) (hreg : Spec.StepsDiffer file p) (start hi : Int)
    (hst : start = r.tstart.getD 0) (hstart : start ≠ 0) (hhi : hi = Spec.windowEnd r.tend E)
    (sel : List (GMsg (Arr n))) (hsel : sel = Spec.taken file p (max 0 (start - a)) hi)
    (sel2 : List (GMsg (Arr m))) (hsel2 : sel2 = Spec.taken file2 p (max 0 (start - a)) hi)
    (nj : Int) (hnj : ∀ q ∈ sel, q.nj = nj) (hdiff : (sel.map GMsg.endStep).Nodup)
    (nj2 : Int) (hnj2 : ∀ q ∈ sel2, q.nj = nj2) (hdiff2 : (sel2.map GMsg.endStep).Nodup)
    (hmv : ∀ q ∈ sel, q.missingValue = .fin mv) (ref : Int × Nat) (href : ∀ q ∈ sel, reference q = some ref)
    (u : Str) (hu : ∀ q ∈ sel, q.get? "stepUnits".toList = some (.str u)) (hk : ∃ name, (u, name) ∈ gribUnits)
    (hdate2 : ∀ q ∈ sel2, (reference q).isSome = true)
    (hconv : Means ne (r.conversion.map fun c => some c.1) f)
    (t : Table k) (ht : t = (s.tables r.mode r.latMap r.lonMap r.input).1) (hfit : Fits t n)
    (t2 : Table k) (ht2 : t2 = (s.tables r.mode r.latMap r.lonMap input2).1) (hfit2 : Fits t2 m)
    (c : GMsg (Arr m)) (hc : c ∈ sel2) (hcmin : ∀ q ∈ sel2, c.endStep ≤ q.endStep)
    (hse : c.startStep ≤ c.endStep) (h0 : 0 ≤ c.endStep) (hend : c.endStep + a < hi)
    (hex : ∃ q ∈ sel, c.startStep ≤ q.endStep) (hex2 : ∃ q ∈ sel2, hi ≤ q.endStep)
    (mask : Fin k → Bool) (hmask : (s.clone r.clone).1 = some mask) :
    ∃ (d : Dataset k) (times : List Int) (n1 n2 : Nat), CommandRun.run ne s (Spec.argv items) = .stored d ∧
      Describes d o r.namePrefix ref fmt scale offset lo up ∧ TimesIn u req times d.time ∧
      times.length = n1 + n2 ∧ d.records.length = n1 + n2 ∧
      (∀ j : Nat, j < n1 ↔ start + j * a ≤ c.startStep) ∧
      (∀ j : Nat, j < n2 ↔ c.endStep + a + j * a ≤ hi) ∧
      (∀ (j : Nat) w, w = start + j * a → w ≤ c.startStep → times[j]? = some w ∧
        ∃ D rec, MeanFrom mv f sel a w D ∧ d.records[j]? = some rec ∧
          ∀ i V, V = finalCell (r.correction.map fun q => (s.heights q.1 q.2.1 q.2.2).1) (cellOf t (s.mvOf r.latMap)
              (Spec.cutField ((r.conversion.map Prod.snd).getD false) D) i) i →
            Shows d lo up (mask i = true ∨ V = s.mvOf r.latMap) V (rec i)) ∧
      ∀ (j : Nat) w, w = c.endStep + a + j * a → w ≤ hi → times[n1 + j]? = some w ∧
        ∃ D rec, MeanFrom mv f sel2 a w D ∧ d.records[n1 + j]? = some rec ∧
          ∀ i V, V = finalCell (r.correction.map fun q => (s.heights q.1 q.2.1 q.2.2).2) (cellOf t2 (s.mvOf r.latMap)
              (Spec.cutField ((r.conversion.map Prod.snd).getD false) D) i) i →
            Shows d lo up (mask i = true ∨ V = s.mvOf r.latMap) V (rec i) := by
  subst hp ht ht2
  have e1 : (Spec.runOfTwo s r input2).file = file := congrArg Prod.fst hfile
  have e2 : (Spec.runOfTwo s r input2).indexable = true := congrArg Prod.snd hfile
  have e3 : (Spec.runOfTwo s r input2).mask = some mask := hmask
  have hcut : ((Spec.runOfTwo s r input2).conversion.isSome && (Spec.runOfTwo s r input2).cutOff) =
      (r.conversion.map Prod.snd).getD false := CommandRun.cut_of s r
  obtain ⟨d, times, n1, n2, h1, h2, h3, h4, h5, h6, h7, h8, h9⟩ := two_file_netcdf_average ne (Spec.runOfTwo s r input2) ⟨file2, true⟩ f mv e2 rfl hup _ hagg rfl rfl a rfl hpos (by rw [e1]; exact hinst) E
    (by rw [e1]; exact hE) (by rw [e1]; exact hreg) start hi hst hstart hhi sel (by rw [e1]; exact hsel) sel2 hsel2 nj hnj
    hdiff nj2 hnj2 hdiff2 hmv ref href u hu hk hdate2 hconv hfit hfit2 c hc hcmin hse h0 hend hex hex2 (by rw [e3]; intro h; cases h) o ho req hreq
  refine ⟨d, times, n1, n2, ?_, h2, h3, h4, h5, h6, h7, ?_, ?_⟩
  · have hd : (Spec.runOfTwo s r input2).datasetTwo ne (s.second input2).2 o = .ok (some d) := by rw [hfile2]; exact h1
    exact CommandRun.netcdf_second_stored ne s items r input2 hcom hfmt o hnc d hd
  · intro j w hw hle
    obtain ⟨g1, D, rec, g2, g3, g4⟩ := h8 j w hw hle
    refine ⟨g1, D, rec, g2, g3, fun i V hV => ?_⟩
    have := g4 i V (by rw [hcut]; exact hV)
    rw [e3] at this
    exact this
  · intro j w hw hle
    obtain ⟨g1, D, rec, g2, g3, g4⟩ := h9 j w hw hle
    refine ⟨g1, D, rec, g2, g3, fun i V hV => ?_⟩
    have := g4 i V (by rw [hcut]; exact hV)
    rw [e3] at this
    exact this

namespace Demo

/-- A file with a change of grid after step 12; its first message holds for an instant. -/
def gridFile : List (GMsg (Arr 2)) :=
  [{ sixH 10 6 (-9999) (fun i => if i = 0 then .fin 1 else .fin 2) with startStep := 6 },
    sixH 10 12 (-9999) fun i => if i = 0 then .fin 3 else .fin 4] ++ fine

/-- The command of `rainSite` on it, with end 30: the two grids have different tables. -/
def gridSite (aggr : Option (JAggr × JVal)) : Site 2 1 :=
  { rainSite with
    commands := fun _ => twoCmd (.str "30".toList) aggr
    grib := fun _ => (gridFile, true)
    tables := fun _ _ _ _ => (.nearest fun _ => 1, .nearest fun _ => 0) }

theorem grid_command (aggr : Option (JAggr × JVal)) (ao : Option AggrOpts) (haggr : Spec.AggrIn aggr ao) :
    Spec.Command (gridSite aggr) rainItems (twoReq (some 30) ao) := by
  obtain ⟨cmd, h1, h2, h3⟩ := rain_command.file
  have htend : Spec.Chosen rainItems (twoCmd (.str "30".toList) aggr).base [] [] .tend (JVal.ofOption .int (some 30)) :=
    end_in _ _ _ (by decide +kernel) (by decide +kernel)
  refine ⟨rain_command.written, rain_command.cwd, ⟨cmd, h1, h2, { h3 with tend := htend, aggr := haggr }⟩,
    rain_command.run, { rain_command.acceptable with window := ?_ }⟩
  rintro a b h1 h2
  injection h1 with h1
  injection h2 with h2
  omega

theorem aggr_mean : Spec.AggrIn meanHours (some ⟨6, "average", false, false⟩) :=
  Or.inr ⟨_, _, 6, "average", false, rfl, Or.inl rfl, by decide, rfl, by decide, rfl, Or.inr (Or.inl ⟨rfl, rfl⟩)⟩

/-- what is asked of the file. -/
def gridSel : SelPar := ⟨"tp".toList, none, none, none, none⟩

theorem grid_last : LastStep gridFile gridSel 30 :=
  ⟨by decide +kernel, by decide +kernel⟩

theorem grid_steps : StepsDiffer gridFile gridSel := steps_of (by decide +kernel) (by decide +kernel)

theorem grid_taken : gridFile = taken gridFile gridSel (max 0 (12 - 6)) 30 := by
  have hq : ∀ q ∈ gridFile, (asksFor gridSel q && inWindow (max 0 (12 - 6)) 30 q) = true := by decide +kernel
  unfold taken
  rw [List.filter_eq_self.2 hq]
  rfl

theorem grid_change : GridChange gridFile (gridFile.take 2) fine (sixH 5 18 (-9999) fun _ => .fin 7) where
  parts := rfl
  some_first := by intro h; cases h
  grids := ⟨10, by decide +kernel, by decide +kernel⟩
  change := ⟨[], _, rfl, by decide +kernel, by decide +kernel⟩

theorem grid_ends (t : Int) (h : InRange (firstEnd 12 6) 12 6 t) :
    (∃ q ∈ gridFile.take 2, q.endStep = t) ∧ (t - 6 = 0 ∨ ∃ q ∈ gridFile.take 2, q.endStep = t - 6) := by
  obtain ⟨j, rfl, hj⟩ := h
  have hf : firstEnd 12 6 = 12 := rfl
  rw [hf] at hj ⊢
  have : j = 0 := by omega
  subst this
  exact ⟨by decide +kernel, .inr (by decide +kernel)⟩

theorem grid_ends2 (t : Int) (h : InRange (18 + 6) 30 6 t) :
    (∃ q ∈ fine, q.endStep = t) ∧ (t - 6 = 0 ∨ ∃ q ∈ fine, q.endStep = t - 6) := by
  obtain ⟨j, rfl, hj⟩ := h
  have : j = 0 ∨ j = 1 := by omega
  rcases this with rfl | rfl
  · exact ⟨by decide +kernel, .inr (by decide +kernel)⟩
  · exact ⟨by decide +kernel, .inr (by decide +kernel)⟩

/-- C165: what is written: 4 − 2 from point 1 of the first grid, then 8 − 7 and 11 − 8 from point 0 of the second. -/
example : outcome (CommandRun.run (fun _ => none) (gridSite sixHours) (Spec.argv rainItems)) =
    some (.ok 0, [("out/R0000000.001", .fin 8), ("out/R0000000.002", .fin 4), ("out/R0000000.003", .fin 12)]) := by
  decide +kernel

/-- C165: the hypotheses are met. -/
example : (∃ files n1 n2, CommandRun.run (fun _ => none) (gridSite sixHours) (Spec.argv rainItems) =
      .ended (.ok 0) files ∧ files.length = n1 + n2 ∧
      (∀ j : Nat, j < n1 ↔ 12 + (j : Int) * 6 ≤ 12) ∧ ∀ j : Nat, j < n2 ↔ 24 + (j : Int) * 6 ≤ 30) ∧
    ∃ files n1 n2, CommandRun.run (fun _ => none) (gridSite meanHours) (Spec.argv rainItems) =
      .ended (.ok 0) files ∧ files.length = n1 + n2 ∧
      (∀ j : Nat, j < n1 ↔ 12 + (j : Int) * 6 ≤ 12) ∧ ∀ j : Nat, j < n2 ↔ 24 + (j : Int) * 6 ≤ 30 := by
  constructor
  · obtain ⟨files, n1, n2, h1, h2, h3, h4, -⟩ := command_change_accumulation_run (fun _ => none) (gridSite sixHours) rainItems
      _ (grid_command _ _ aggr_in) rfl (by decide) id (-9999) gridFile rfl (by decide +kernel) 6 false false rfl (by decide)
      gridSel rfl (by decide +kernel) 30 grid_last grid_steps 12 30 rfl rfl _ _ _ _ grid_taken grid_change
      (by decide +kernel) (by decide +kernel) (by decide +kernel) (by decide +kernel) (.inl ⟨.inr rfl, rfl⟩)
      _ rfl (fun _ => Nat.le_succ 1) _ rfl (fun _ => Nat.zero_le 2) (by decide) (by decide) (by decide) grid_ends grid_ends2
    exact ⟨files, n1, n2, h1, h2, h3, h4⟩
  · obtain ⟨files, n1, n2, h1, h2, h3, h4, -⟩ := command_change_average_run (fun _ => none) (gridSite meanHours) rainItems
      _ (grid_command _ _ aggr_mean) rfl (by decide) id (-9999) gridFile rfl (by decide +kernel) 6 false rfl (by decide)
      (by decide +kernel) gridSel rfl (by decide +kernel) 30 grid_last grid_steps 12 30 rfl (by decide) rfl _ _ _ _ grid_taken
      grid_change
      (by decide +kernel) (by decide +kernel) (by decide +kernel) (by decide +kernel) (.inl ⟨.inr rfl, rfl⟩)
      _ rfl (fun _ => Nat.le_succ 1) _ rfl (fun _ => Nat.zero_le 2) (by decide) (by decide) (by decide)
      (by decide +kernel) (by decide +kernel)
    exact ⟨files, n1, n2, h1, h2, h3, h4⟩

/-- The netCDF command of `ncSite` with end 30 and another aggregation. -/
def gridNcSite (ag : JAggr × JVal) : Site 2 1 :=
  { ncSite with
    commands := fun _ => { ncCmd with base := { ncCmd.base with tend := .str "30".toList }, aggr := some ag }
    grib := fun _ => (gridFile, true)
    second := fun _ => ⟨1, laterH⟩
    tables := fun _ _ _ input =>
      if input = "after.grb".toList then (.nearest fun _ => 0, .nearest fun _ => 0)
      else (.nearest fun _ => 1, .nearest fun _ => 0) }

/-- its request. -/
def gridNcReq (ao : AggrOpts) : Spec.Request := { ncReq with tend := some 30, aggr := some ao }

theorem grid_nc_command (ag : JAggr × JVal) (ao : AggrOpts) (h : Spec.AggrIn (some ag) (some ao)) :
    Spec.Command (gridNcSite ag) rainItems (gridNcReq ao) := by
  obtain ⟨cmd, h1, h2, h3⟩ := nc_command.file
  have htend : Spec.Chosen rainItems ((gridNcSite ag).commands []).base [] [] .tend
      (JVal.ofOption .int (some 30)) :=
    Or.inr ⟨rain_absent "end" (by decide +kernel), Or.inl (show JVal.str "30".toList ∉ _ by decide +kernel),
      (show Spec.expected none (.str "30".toList) .null true = .ok (JVal.ofOption .int (some 30)) by decide +kernel)⟩
  refine ⟨nc_command.written, nc_command.cwd, ⟨cmd, h1, h2, { h3 with tend := htend, aggr := h }⟩,
    nc_command.run, { nc_command.acceptable with window := ?_ }⟩
  rintro a b h1 h2
  injection h1 with h1
  injection h2 with h2
  omega

theorem grid_nc_asked (ag : JAggr × JVal) (ao : AggrOpts) :
    Spec.NcCommand (gridNcSite ag) rainItems (gridNcReq ao) (valuesNcAsked ao) := by
  intro cmd hc
  have := values_nc_asked ag ao cmd hc
  exact { this with }

def accOpts : AggrOpts := ⟨6, "accumulation", false, false⟩
def meanOpts : AggrOpts := ⟨6, "average", false, false⟩

/-- C165, netCDF output: what is stored. -/
example : stored (CommandRun.run (fun _ => none) (gridNcSite (⟨.int 6, .str "accumulation".toList, none⟩, .null))
    (Spec.argv rainItems)) = some ("out/R_accumulation.nc", [14, 6, 22], [1 / 2, 1, 5 / 4], some (-2)) := by
  decide +kernel

/-- C165, netCDF output: the hypotheses are met. -/
example : (∃ (d : Dataset 1) (times : List Int), CommandRun.run (fun _ => none)
      (gridNcSite (⟨.int 6, .str "accumulation".toList, none⟩, .null)) (Spec.argv rainItems) = .stored d ∧
      times[0]? = some 12) ∧
    ∃ (d : Dataset 1) (times : List Int), CommandRun.run (fun _ => none)
      (gridNcSite (⟨.int 6, .str "average".toList, none⟩, .null)) (Spec.argv rainItems) = .stored d ∧
      times[0]? = some 12 := by
  constructor
  · obtain ⟨d, times, n1, n2, h1, -, ht, -, -, h3, h4, h5, h6⟩ := command_change_netcdf_accumulation (fun _ => none) _ rainItems
      (gridNcReq accOpts) (grid_nc_command _ _ aggr_in) rfl _ (grid_nc_asked _ accOpts) (valuesNcAsked_means _)
      (some "D".toList) (.inr ⟨_, rfl, rfl⟩) id (-9999) gridFile rfl (by decide +kernel) 6 false false rfl (by decide)
      gridSel rfl (by decide +kernel) 30 grid_last grid_steps 12 30 rfl rfl _ _ _ _ grid_taken grid_change
      (by decide +kernel) (by decide +kernel) (by decide +kernel) (20240501, 12) (by decide +kernel) "h".toList
      (by decide +kernel) hours (.inl ⟨.inr rfl, rfl⟩)
      _ rfl (fun _ => Nat.le_succ 1) _ rfl (fun _ => Nat.zero_le 2) (by decide) (by decide) (by decide) grid_ends grid_ends2
      (fun _ => false) rfl
    exact ⟨d, times, h1, (h5 0 12 rfl (by decide)).1⟩
  · obtain ⟨d, times, n1, n2, h1, -, ht, -, -, h3, h4, h5, h6⟩ := command_change_netcdf_average (fun _ => none) _ rainItems
      (gridNcReq meanOpts) (grid_nc_command _ _ aggr_mean) rfl _ (grid_nc_asked _ meanOpts) (valuesNcAsked_means _)
      (some "D".toList) (.inr ⟨_, rfl, rfl⟩) id (-9999) gridFile rfl (by decide +kernel) 6 false rfl (by decide)
      (by decide +kernel) gridSel rfl (by decide +kernel) 30 grid_last grid_steps 12 30 rfl (by decide) rfl _ _ _ _ grid_taken
      grid_change (by decide +kernel) (by decide +kernel) (by decide +kernel) (20240501, 12) (by decide +kernel) "h".toList
      (by decide +kernel) hours (.inl ⟨.inr rfl, rfl⟩)
      _ rfl (fun _ => Nat.le_succ 1) _ rfl (fun _ => Nat.zero_le 2) (by decide) (by decide) (by decide)
      (by decide +kernel) (by decide +kernel) (fun _ => false) rfl
    exact ⟨d, times, h1, (h5 0 12 rfl (by decide)).1⟩

/-- The command of `gridNcSite` whose first file ends at step 12, with a second file. -/
def joinedSite (ag : JAggr × JVal) : Site 2 1 := { gridNcSite ag with grib := fun _ => (gridFile.take 2, true) }

theorem joined_command (ag : JAggr × JVal) (ao : AggrOpts) (h : Spec.AggrIn (some ag) (some ao)) :
    Spec.TwoFileCommand (joinedSite ag) twoItems (gridNcReq ao) "after.grb".toList :=
  with_second (s := joinedSite ag) (r := gridNcReq ao) (with_data (grid_nc_command ag ao h) _ (gridNcSite ag).tables)
    "after.grb".toList (by decide) (by decide)

theorem joined_asked (ag : JAggr × JVal) (ao : AggrOpts) :
    Spec.NcCommand (joinedSite ag) twoItems (gridNcReq ao) (valuesNcAsked ao) := by
  intro cmd _
  obtain ⟨cmd, h1, -⟩ := rain_command.file
  have h := grid_nc_asked ag ao cmd h1
  exact { h with
    stepUnits := chosen_append h.stepUnits (by decide)
    validMin := chosen_append h.validMin (by decide)
    validMax := chosen_append h.validMax (by decide)
    valueFormat := chosen_append h.valueFormat (by decide)
    offset := chosen_append h.offset (by decide)
    scaleFactor := chosen_append h.scaleFactor (by decide) }

theorem joined_ends2 (t : Int) (h : InRange (18 + 6) 30 6 t) :
    (∃ q ∈ taken laterH.file gridSel (max 0 (12 - 6)) 30, q.endStep = t) ∧
      (t - 6 = 0 ∨ ∃ q ∈ taken laterH.file gridSel (max 0 (12 - 6)) 30, q.endStep = t - 6) := by
  obtain ⟨j, rfl, hj⟩ := h
  have : j = 0 ∨ j = 1 := by omega
  rcases this with rfl | rfl
  · exact ⟨by decide +kernel, .inr (by decide +kernel)⟩
  · exact ⟨by decide +kernel, .inr (by decide +kernel)⟩

theorem joined_taken : gridFile.take 2 = taken (gridFile.take 2) gridSel (max 0 (12 - 6)) 30 := by
  have hq : ∀ q ∈ gridFile.take 2, (asksFor gridSel q && inWindow (max 0 (12 - 6)) 30 q) = true := by decide +kernel
  unfold taken
  rw [List.filter_eq_self.2 hq]
  rfl

/-- C166: what is stored. -/
example : stored (CommandRun.run (fun _ => none) (joinedSite (⟨.int 6, .str "accumulation".toList, none⟩, .null))
    (Spec.argv twoItems)) = some ("out/R_accumulation.nc", [14, 14, 14], [1 / 2, 1, 5 / 4], some (-2)) := by
  decide +kernel

/-- C166: the hypotheses are met. -/
example : (∃ (d : Dataset 1) (times : List Int), CommandRun.run (fun _ => none)
      (joinedSite (⟨.int 6, .str "accumulation".toList, none⟩, .null)) (Spec.argv twoItems) = .stored d ∧
      times[0]? = some 12) ∧
    ∃ (d : Dataset 1) (times : List Int), CommandRun.run (fun _ => none)
      (joinedSite (⟨.int 6, .str "average".toList, none⟩, .null)) (Spec.argv twoItems) = .stored d ∧
      times[0]? = some 12 := by
  constructor
  · obtain ⟨d, times, n1, n2, h1, -, ht, -, -, h3, h4, h5, h6⟩ := two_file_command_netcdf_accumulation (fun _ => none) _ twoItems
      (gridNcReq accOpts) "after.grb".toList (joined_command _ _ aggr_in) rfl _ (joined_asked _ accOpts) (valuesNcAsked_means _)
      (some "D".toList) (.inr ⟨_, rfl, rfl⟩) id (-9999) (gridFile.take 2) rfl laterH.file rfl (by decide +kernel) 6 false false
      rfl (by decide) gridSel rfl 12 ⟨by decide +kernel, by decide +kernel⟩ (steps_of (by decide +kernel) (by decide +kernel))
      12 30 rfl rfl _ joined_taken (fun h => absurd (congrArg List.length h) (by decide +kernel)) _ rfl 10
      (by decide +kernel) (by decide +kernel) 5 (by decide +kernel) (by decide +kernel)
      (by decide +kernel) (20240501, 12) (by decide +kernel) "h".toList
      (by decide +kernel) hours (by decide +kernel) (.inl ⟨.inr rfl, rfl⟩)
      _ rfl (fun _ => Nat.le_succ 1) _ rfl (fun _ => Nat.zero_le 1) (sixH 5 18 (-9999) fun _ => .fin 7)
      (List.mem_filter.2 ⟨List.mem_cons_self, by decide +kernel⟩) (by decide +kernel) (by decide) (by decide) (by decide)
      grid_ends joined_ends2 (fun _ => false) rfl
    exact ⟨d, times, h1, (h5 0 12 rfl (by decide)).1⟩
  · obtain ⟨d, times, n1, n2, h1, -, ht, -, -, h3, h4, h5, h6⟩ := two_file_command_netcdf_average (fun _ => none) _ twoItems
      (gridNcReq meanOpts) "after.grb".toList (joined_command _ _ aggr_mean) rfl _ (joined_asked _ meanOpts) (valuesNcAsked_means _)
      (some "D".toList) (.inr ⟨_, rfl, rfl⟩) id (-9999) (gridFile.take 2) rfl laterH.file rfl (by decide +kernel) 6 false
      rfl (by decide) (by decide +kernel) gridSel rfl 12 ⟨by decide +kernel, by decide +kernel⟩
      (steps_of (by decide +kernel) (by decide +kernel))
      12 30 rfl (by decide) rfl _ joined_taken _ rfl 10
      (by decide +kernel) (by decide +kernel) 5 (by decide +kernel) (by decide +kernel)
      (by decide +kernel) (20240501, 12) (by decide +kernel) "h".toList
      (by decide +kernel) hours (by decide +kernel) (.inl ⟨.inr rfl, rfl⟩)
      _ rfl (fun _ => Nat.le_succ 1) _ rfl (fun _ => Nat.zero_le 1) (sixH 5 18 (-9999) fun _ => .fin 7)
      (List.mem_filter.2 ⟨List.mem_cons_self, by decide +kernel⟩) (by decide +kernel) (by decide) (by decide) (by decide)
      (by decide +kernel) (by decide +kernel) (fun _ => false) rfl
    exact ⟨d, times, h1, (h5 0 12 rfl (by decide)).1⟩

end Demo

end PyG2P
