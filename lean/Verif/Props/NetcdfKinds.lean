import Verif.Props.RunKinds
import Verif.Props.NetcdfCommand

/-! # netCDF output of runs that extract steps or average with half weights (C160, C161) -/

namespace PyG2P
open Spec TableApply Converter Aggregator CommandRun
variable {n k : Nat}

/-- The times of an extraction. -/
theorem extraction_times (ne : NumExpr) (r : RunIn n n k) (f : Num → Num) (mv : ℚ) (hmv : r.ctrl.msgs.mv = .fin mv)
    (hconv : Means ne r.conversion f) (hone : r.ctrl.msgs.changeResolutionStep = none) (hagg : r.ctrl.aggregate = true)
    (a : Int) (ha : r.ctrl.aggrStep = some a) (hpos : 0 < a) (htype : r.ctrl.aggrType = "instantaneous")
    (hst2 : r.ctrl.stepType ≠ "avg")
    (values : Dict Step (Field n n)) (change : Option Step) (hf : r.fields ne = .ok (values, change)) :
    values.map (fun e => e.1.endStep) = rangeList (extractFirst r.ctrl.start a) (r.ctrl.end_ + 1) a := by
  have hs1 := fields_sorted ne r values change hf
  rw [fields_single ne r f mv hmv hconv hone, firstPart_aggregated (a := a) (by exact hagg) (by exact ha) (by exact hone)]
    at hf
  set ag := (convertedCtrl mv f r.ctrl).aggregator a with hag
  cases h1 : ag.doManipulation (convertedCtrl mv f r.ctrl).msgs.first with
  | error e => rw [h1] at hf; cases hf
  | ok v1 =>
    rw [h1] at hf
    have hf := congrArg Prod.fst (Except.ok.inj hf)
    dsimp only at hf
    rw [doManipulation_inst ag _ htype] at h1
    obtain ⟨-, fst, V, -, -, ho⟩ := instantaneous_ok ag _ hpos v1 h1
    have hb : ag.findStart = extractFirst r.ctrl.start a := by
      unfold findStart
      exact if_neg hst2
    have hr' : (rangeList (extractFirst r.ctrl.start a) (r.ctrl.end_ + 1) a).Pairwise (· < ·) := rangeList_pairwise hpos
    have e1 : (values.map fun e => e.1.endStep).Perm (rangeList (extractFirst r.ctrl.start a) (r.ctrl.end_ + 1) a) := by
      rw [← hf]
      refine ((sortedBy_perm _ _).map _).trans ?_
      rw [ho, hb, List.map_map, List.map_map]
      have : (rangeList (extractFirst r.ctrl.start a) (ag.end_ + 1) ag.aggrStep).map (fun t => t) =
          rangeList (extractFirst r.ctrl.start a) (r.ctrl.end_ + 1) a := List.map_id _
      rw [← this]
      exact List.Perm.refl _
    refine List.Perm.eq_of_pairwise (le := (· ≤ ·)) (fun a b _ _ h1 h2 => le_antisymm h1 h2) ?_
      (hr'.imp fun h => le_of_lt h) e1
    rw [List.pairwise_map]
    exact hs1

/-- The data set of an extraction whose maps are known. -/
theorem netcdf_extraction (ne : NumExpr) (x : FileIn n k) (f : Num → Num) (mv : ℚ) (hidx : x.indexable = true)
    (hup : x.sel.shortName.map Char.toUpper ≠ x.sel.shortName) (ao : AggrOpts) (hagg : x.aggr = some ao)
    (a : Int) (ha : ao.step = a) (hpos : 0 < a)
    (E : Int) (hE : LastStep x.file x.sel E) (hreg : StepsDiffer x.file x.sel) (start hi : Int)
    (hst : start = x.tstart.getD 0) (hhi : hi = windowEnd x.tend E) (hty : ao.type = "instantaneous")
    (hinst : ∀ m ∈ x.file, named x.sel m = true → m.stepType ≠ "avg".toList)
    (sel : List (GMsg (Arr n)))
    (hsel : sel = taken x.file x.sel (max 0 (start - a)) hi) (hne : sel ≠ [])
    (nj : Int) (hnj : ∀ m ∈ sel, m.nj = nj) (hdiff : (sel.map GMsg.endStep).Nodup)
    (hmv : ∀ m ∈ sel, m.missingValue = .fin mv) (ref : Int × Nat) (href : ∀ m ∈ sel, reference m = some ref)
    (u : Str) (hu : ∀ m ∈ sel, m.get? "stepUnits".toList = some (.str u)) (hk : ∃ name, (u, name) ∈ gribUnits)
    (hconv : Means ne x.conversion f) (hm : x.mask ≠ none)
    (o : NcOut) {fmt : ValueFormat} {scale offset : ℚ} {lo up : Option ℚ} (ho : NcMeans o fmt scale offset lo up)
    (req : Option Str) (hreq : unitAsked o.stepUnits req) (files : List (Str × (Fin k → Num)))
    (hrun : x.bare.pcraster ne = .ok files) (hfirst : files ≠ []) :
    ∃ (d : Dataset k) (times : List Int), x.dataset ne o = .ok (some d) ∧
      Describes d o x.namePrefix ref fmt scale offset lo up ∧ TimesIn u req times d.time ∧
      (∀ (j : Nat) t, times[j]? = some t ↔ t = extractFirst start a + j * a ∧ t ≤ hi) ∧
      d.records.length = times.length ∧ files.length = times.length ∧
      ∀ (j : Nat) file rec, files[j]? = some file → d.records[j]? = some rec → ∀ c,
        Shows d lo up (outside x.mask c = true ∨ file.2 c = x.mvOut) (file.2 c) (rec c) := by
  subst hsel
  have hwin : ∀ step, (StepsDiffer x.file x.sel → step ≠ 0) →
      readerWindow x.tstart x.tend (x.aggr.map AggrOpts.step) step E = (max 0 (start - a), hi) := fun step h => by
    rw [hagg, hst, hhi, ← ha]
    exact window_aggr x.tstart x.tend ao.step step E (h hreg)
  obtain ⟨m0, hm0, h0⟩ := first_selected x hidx hup E hE _ _ hwin hne nj hnj (differ_of_ends hdiff)
  obtain ⟨info, t2, msgs, ms, hset, hend, hone, hmvs, hperm, hmap⟩ := file_settings x hidx hup E hE _ _ hwin hne nj hnj
    (differ_of_ends hdiff) mv hmv (fun m h => by rw [href m h]; rfl)
  obtain ⟨d, r, values, change, hd, hset', hf, hdesc, htime, hrl, hvl, hshow⟩ := dataset_of_maps ne x o ho hm files hrun
    hfirst m0 h0 ref (href m0 hm0) u (hu m0 hm0) hk req hreq
  rw [hset] at hset'
  have hset' := Except.ok.inj hset'
  have hr := range_eq x info
  rw [hend] at hr
  have hrs : (x.assemble info t2 msgs).ctrl.start = start := by
    rw [hst]; exact congrArg Prod.fst hr
  have hre : (x.assemble info t2 msgs).ctrl.end_ = hi := by
    rw [hhi]; exact congrArg Prod.snd hr
  rw [← hset'] at hf
  have htimes := extraction_times ne (x.assemble info t2 msgs) f mv hmvs hconv hone
    (by show x.aggr.isSome = true; rw [hagg]; rfl) a
    (by show x.aggr.map AggrOpts.step = some a; rw [hagg, ← ha]; rfl) hpos
    (by
      show (x.aggr.map AggrOpts.type).getD "" = "instantaneous"
      rw [hagg]
      exact hty)
    (by
      obtain ⟨mt, hmt, hmn, hpt⟩ := paramType_mem x hidx E hE
      show x.paramType ≠ "avg"
      rw [hpt]
      intro hc
      exact hinst mt hmt hmn (by rw [← hc, String.toList_ofList])) values change hf
  rw [hrs, hre] at htimes
  rw [htimes] at htime
  have hll : (rangeList (extractFirst start a) (hi + 1) a).length = files.length := by
    rw [← htimes, List.length_map, hvl]
  refine ⟨d, _, hd, hdesc, htime, fun j t => ⟨fun h => ?_, fun h => ?_⟩, hrl.trans hll.symm, hll.symm, hshow⟩
  · have hlt := (List.getElem?_eq_some_iff.1 h).1
    have h2 := rangeList_length_le hpos j hlt
    rw [rangeList_get hpos j h2] at h
    have := Option.some.inj h
    exact ⟨this.symm, by omega⟩
  · obtain ⟨rfl, h⟩ := h
    exact rangeList_get hpos j (by omega)

/-- **C161** with netCDF output (compare C150). -/
theorem netcdf_half_weight_run (ne : NumExpr) (x : FileIn n k) (f : Num → Num) (mv : ℚ) (hidx : x.indexable = true)
    (hup : x.sel.shortName.map Char.toUpper ≠ x.sel.shortName) (ao : AggrOpts) (hagg : x.aggr = some ao)
    (hty : ao.type = "average") (hh : ao.halfweights = true) (a : Int) (ha : ao.step = a) (hpos : 0 < a)
    (hinst : ∀ m ∈ x.file, named x.sel m = true → m.stepType ≠ "accum".toList)
    (E : Int) (hE : LastStep x.file x.sel E) (hreg : StepsDiffer x.file x.sel) (start hi : Int)
    (hst : start = x.tstart.getD 0) (h0 : start ≠ 0) (hhi : hi = windowEnd x.tend E) (sel : List (GMsg (Arr n)))
    (hsel : sel = taken x.file x.sel (max 0 (start - a)) hi)
    (nj : Int) (hnj : ∀ m ∈ sel, m.nj = nj) (hdiff : (sel.map GMsg.endStep).Nodup)
    (hmv : ∀ m ∈ sel, m.missingValue = .fin mv) (ref : Int × Nat) (href : ∀ m ∈ sel, reference m = some ref)
    (u : Str) (hu : ∀ m ∈ sel, m.get? "stepUnits".toList = some (.str u)) (hk : ∃ name, (u, name) ∈ gribUnits)
    (hconv : Means ne x.conversion f) (hfit : Fits x.table n)
    (hne : sel ≠ []) (hsome : start ≤ hi) (hm : x.mask ≠ none)
    (o : NcOut) {fmt : ValueFormat} {scale offset : ℚ} {lo up : Option ℚ} (ho : NcMeans o fmt scale offset lo up)
    (req : Option Str) (hreq : unitAsked o.stepUnits req) :
    ∃ (d : Dataset k) (times : List Int), x.dataset ne o = .ok (some d) ∧
      Describes d o x.namePrefix ref fmt scale offset lo up ∧ TimesIn u req times d.time ∧
      (∀ (j : Nat) t, times[j]? = some t ↔ t = start + j * a ∧ t ≤ hi) ∧
      d.records.length = times.length ∧
      ∀ (j : Nat) t rec, times[j]? = some t → d.records[j]? = some rec →
        ∃ (l : List (GMsg (Arr n))) (D : Arr n), l.Pairwise (fun p q => p.endStep < q.endStep) ∧
          (∀ m, m ∈ l ↔ m ∈ sel ∧ t - a ≤ m.endStep ∧ m.endStep ≤ t) ∧
          (if 2 ≤ l.length then ∀ i, (∀ m ∈ sel, m.values.masked i = false) →
              D.data i = (l.map fun m => (convertedField mv f m.values).data i *
                .fin (endWeight (t - a) t m.endStep)).sum /
                  .fin ((l.map fun m => endWeight (t - a) t m.endStep).sum)
           else ∀ i, D.data i = .nan) ∧
          (∀ i, D.masked i = false) ∧
          ∀ c V, V = finalCell x.height (cellOf x.table x.mvOut
              (Spec.cutField (x.conversion.isSome && x.cutOff) D) c) c →
            Shows d lo up (outside x.mask c = true ∨ V = x.mvOut) V (rec c) := by
  obtain ⟨files, hrun, hlen, hfile⟩ := file_half_weight_run ne x.bare f mv hidx hup ao hagg hty hh a ha hpos hinst E hE hreg
    start hi hst h0 hhi sel hsel hne nj hnj hdiff hmv (fun m h => by rw [href m h]; rfl) hconv hfit
  have hfne : files ≠ [] := by
    intro h
    have := (hlen 0).2 (by simpa using hsome)
    rw [h] at this
    exact absurd this (by simp)
  have hfe : firstEnd start a = start := by
    unfold firstEnd
    rw [if_neg h0]
  obtain ⟨d, times, hd, hdesc, htime, hget, hrl, hfl, hshow⟩ := netcdf_intervals ne x f mv hidx hup ao hagg a ha hpos E hE hreg
    start hi hst hhi (Or.inr ⟨hty, h0⟩) sel hsel hne nj hnj hdiff hmv ref href u hu hk hconv hm o ho req hreq files hrun
    hfne
  rw [hfe] at hget
  refine ⟨d, times, hd, hdesc, htime, hget, hrl, fun j t rec hj hrec => ?_⟩
  obtain ⟨ht, hle⟩ := (hget j t).1 hj
  obtain ⟨l, D, h1, h2, h3, h4, h5⟩ := hfile j t ht hle
  refine ⟨l, D, h1, h2, h3, h4, fun c V hV => ?_⟩
  have := hshow j _ rec h5 hrec c
  dsimp only at this
  change Shows d lo up (outside x.mask c = true ∨ shown none .nan _ c = x.mvOut) (shown none .nan _ c) (rec c) at this
  rw [shown_bare] at this
  rw [hV]
  exact this

/-- **C160** with netCDF output (compare C150). -/
theorem netcdf_instantaneous_run (ne : NumExpr) (x : FileIn n k) (f : Num → Num) (mv : ℚ) (hidx : x.indexable = true)
    (hup : x.sel.shortName.map Char.toUpper ≠ x.sel.shortName) (ao : AggrOpts) (hagg : x.aggr = some ao)
    (hty : ao.type = "instantaneous") (a : Int) (ha : ao.step = a) (hpos : 0 < a)
    (hinst : ∀ m ∈ x.file, named x.sel m = true → m.stepType ≠ "accum".toList ∧ m.stepType ≠ "avg".toList)
    (E : Int) (hE : LastStep x.file x.sel E) (hreg : StepsDiffer x.file x.sel) (start hi : Int)
    (hst : start = x.tstart.getD 0) (hhi : hi = windowEnd x.tend E) (sel : List (GMsg (Arr n)))
    (hsel : sel = taken x.file x.sel (max 0 (start - a)) hi)
    (nj : Int) (hnj : ∀ m ∈ sel, m.nj = nj) (hdiff : (sel.map GMsg.endStep).Nodup)
    (hmv : ∀ m ∈ sel, m.missingValue = .fin mv) (ref : Int × Nat) (href : ∀ m ∈ sel, reference m = some ref)
    (u : Str) (hu : ∀ m ∈ sel, m.get? "stepUnits".toList = some (.str u)) (hk : ∃ name, (u, name) ∈ gribUnits)
    (hconv : Means ne x.conversion f) (hfit : Fits x.table n)
    (hex : ∃ m ∈ sel, hi ≤ m.endStep) (first : Int)
    (hfirst : first = extractFirst start a) (hsome : first ≤ hi) (hm : x.mask ≠ none)
    (o : NcOut) {fmt : ValueFormat} {scale offset : ℚ} {lo up : Option ℚ} (ho : NcMeans o fmt scale offset lo up)
    (req : Option Str) (hreq : unitAsked o.stepUnits req) :
    ∃ (d : Dataset k) (times : List Int), x.dataset ne o = .ok (some d) ∧
      Describes d o x.namePrefix ref fmt scale offset lo up ∧ TimesIn u req times d.time ∧
      (∀ (j : Nat) t, times[j]? = some t ↔ t = first + j * a ∧ t ≤ hi) ∧
      d.records.length = times.length ∧
      ∀ (j : Nat) t rec, times[j]? = some t → d.records[j]? = some rec →
        ∃ D : Arr n, (∀ i, D.masked i = false) ∧
          (if t = 0 ∧ (∀ m ∈ sel, m.endStep ≠ 0) then ∀ i, D.data i = 0
           else ∃ m ∈ sel, t ≤ m.endStep ∧ (∀ m' ∈ sel, t ≤ m'.endStep → m.endStep ≤ m'.endStep) ∧
             ∀ i, D.data i = (convertedField mv f m.values).data i) ∧
          ∀ c V, V = finalCell x.height (cellOf x.table x.mvOut
              (Spec.cutField (x.conversion.isSome && x.cutOff) D) c) c →
            Shows d lo up (outside x.mask c = true ∨ V = x.mvOut) V (rec c) := by
  obtain ⟨files, hrun, hlen, hfile⟩ := file_instantaneous_run ne x.bare f mv hidx hup ao hagg hty a ha hpos hinst E hE hreg
    start hi hst hhi sel hsel nj hnj hdiff hmv (fun m h => by rw [href m h]; rfl) hconv hfit hex first hfirst
  have hne : sel ≠ [] := by
    obtain ⟨m, hm, -⟩ := hex
    intro h
    rw [h] at hm
    cases hm
  have hfne : files ≠ [] := by
    intro h
    have := (hlen 0).2 (by simpa using hsome)
    rw [h] at this
    exact absurd this (by simp)
  obtain ⟨d, times, hd, hdesc, htime, hget, hrl, hfl, hshow⟩ := netcdf_extraction ne x f mv hidx hup ao hagg a ha hpos E hE hreg
    start hi hst hhi hty (fun m hm hn => (hinst m hm hn).2) sel hsel hne nj hnj hdiff hmv ref href u hu hk hconv hm o ho req hreq files hrun
    hfne
  rw [← hfirst] at hget
  refine ⟨d, times, hd, hdesc, htime, hget, hrl, fun j t rec hj hrec => ?_⟩
  obtain ⟨ht, hle⟩ := (hget j t).1 hj
  obtain ⟨D, h1, h2, h5⟩ := hfile j t ht hle
  refine ⟨D, h1, h2, fun c V hV => ?_⟩
  have := hshow j _ rec h5 hrec c
  dsimp only at this
  change Shows d lo up (outside x.mask c = true ∨ shown none .nan _ c = x.mvOut) (shown none .nan _ c) (rec c) at this
  rw [shown_bare] at this
  rw [hV]
  exact this

/-- **C161** as a command with netCDF output (compare C153). -/
theorem command_netcdf_half_weight_run (ne : NumExpr) (s : Site n k) (items : List (Spec.Written × Str × JVal))
    (r : Spec.Request) (hcom : Spec.Command s items r) (hfmt : r.format = "netcdf".toList) (o : NcOut)
    (hnc : Spec.NcCommand s items r o) {fmt : ValueFormat} {scale offset : ℚ} {lo up : Option ℚ}
    (ho : NcMeans o fmt scale offset lo up) (req : Option Str) (hreq : unitAsked o.stepUnits req)
    (f : Num → Num) (mv : ℚ) (file : List (GMsg (Arr n))) (hfile : s.grib r.input = (file, true))
    (hup : r.shortName.map Char.toUpper ≠ r.shortName) (a : Int) (forced : Bool)
    (hagg : r.aggr = some ⟨a, "average", true, forced⟩) (hpos : 0 < a)
    (p : SelPar) (hp : p = ⟨r.shortName, r.level, r.dataTime, r.dataDate, r.member⟩)
    (hinst : ∀ m ∈ file, named p m = true → m.stepType ≠ "accum".toList)
    (E : Int) (hE : Spec.LastStep file p E) (hreg : Spec.StepsDiffer file p) (start hi : Int)
    (hst : start = r.tstart.getD 0) (h0 : start ≠ 0) (hhi : hi = Spec.windowEnd r.tend E) (sel : List (GMsg (Arr n)))
    (hsel : sel = Spec.taken file p (max 0 (start - a)) hi)
    (nj : Int) (hnj : ∀ m ∈ sel, m.nj = nj) (hdiff : (sel.map GMsg.endStep).Nodup)
    (hmv : ∀ m ∈ sel, m.missingValue = .fin mv) (ref : Int × Nat) (href : ∀ m ∈ sel, reference m = some ref)
    (u : Str) (hu : ∀ m ∈ sel, m.get? "stepUnits".toList = some (.str u)) (hk : ∃ name, (u, name) ∈ gribUnits)
    (hconv : Means ne (r.conversion.map fun c => some c.1) f)
    (t : Table k) (ht : t = (s.tables r.mode r.latMap r.lonMap r.input).1) (hfit : Fits t n)
    (hne : sel ≠ []) (hsome : start ≤ hi)
    (mask : Fin k → Bool) (hmask : (s.clone r.clone).1 = some mask) :
    ∃ (d : Dataset k) (times : List Int), CommandRun.run ne s (Spec.argv items) = .stored d ∧
      Describes d o r.namePrefix ref fmt scale offset lo up ∧ TimesIn u req times d.time ∧
      (∀ (j : Nat) t, times[j]? = some t ↔ t = start + j * a ∧ t ≤ hi) ∧
      d.records.length = times.length ∧
      ∀ (j : Nat) w rec, times[j]? = some w → d.records[j]? = some rec →
        ∃ (l : List (GMsg (Arr n))) (D : Arr n), l.Pairwise (fun p q => p.endStep < q.endStep) ∧
          (∀ m, m ∈ l ↔ m ∈ sel ∧ w - a ≤ m.endStep ∧ m.endStep ≤ w) ∧
          (if 2 ≤ l.length then ∀ i, (∀ m ∈ sel, m.values.masked i = false) →
              D.data i = (l.map fun m => (convertedField mv f m.values).data i *
                .fin (endWeight (w - a) w m.endStep)).sum /
                  .fin ((l.map fun m => endWeight (w - a) w m.endStep).sum)
           else ∀ i, D.data i = .nan) ∧
          (∀ i, D.masked i = false) ∧
          ∀ c V, V = finalCell (r.correction.map fun q => (s.heights q.1 q.2.1 q.2.2).1) (cellOf t (s.mvOf r.latMap)
              (Spec.cutField ((r.conversion.map Prod.snd).getD false) D) c) c →
            Shows d lo up (mask c = true ∨ V = s.mvOf r.latMap) V (rec c) := by
  subst hp ht
  have e1 : (Spec.runOf s r).file = file := congrArg Prod.fst hfile
  have e2 : (Spec.runOf s r).indexable = true := congrArg Prod.snd hfile
  have e3 : (Spec.runOf s r).mask = some mask := hmask
  obtain ⟨d, times, h3, h4, h5, h6, h7, h8⟩ := netcdf_half_weight_run ne (Spec.runOf s r) f mv e2 hup _ hagg rfl rfl a rfl
    hpos (by rw [e1]; exact hinst) E (by rw [e1]; exact hE) (by rw [e1]; exact hreg) start hi hst h0 hhi sel
    (by rw [e1]; exact hsel) nj hnj hdiff hmv ref href u hu hk hconv hfit hne hsome (by rw [e3]; intro h; cases h) o ho
    req hreq
  refine ⟨d, times, ?_, h4, h5, h6, h7, fun j w rec hj hr => ?_⟩
  · rw [netcdf_core ne s items r hcom (by rw [hfmt]; decide) o hnc, decide_eq_true hfmt]
    exact netcdf_stored ne _ o d h3
  · obtain ⟨l, D, g1, g2, g3, g4, g5⟩ := h8 j w rec hj hr
    refine ⟨l, D, g1, g2, g3, g4, fun c V hV => ?_⟩
    have := g5 c V (by rw [CommandRun.cut_of]; exact hV)
    rw [e3] at this
    exact this

/-- **C160** as a command with netCDF output (compare C153). -/
theorem command_netcdf_instantaneous_run (ne : NumExpr) (s : Site n k) (items : List (Spec.Written × Str × JVal))
    (r : Spec.Request) (hcom : Spec.Command s items r) (hfmt : r.format = "netcdf".toList) (o : NcOut)
    (hnc : Spec.NcCommand s items r o) {fmt : ValueFormat} {scale offset : ℚ} {lo up : Option ℚ}
    (ho : NcMeans o fmt scale offset lo up) (req : Option Str) (hreq : unitAsked o.stepUnits req)
    (f : Num → Num) (mv : ℚ) (file : List (GMsg (Arr n))) (hfile : s.grib r.input = (file, true))
    (hup : r.shortName.map Char.toUpper ≠ r.shortName) (a : Int) (half forced : Bool)
    (hagg : r.aggr = some ⟨a, "instantaneous", half, forced⟩) (hpos : 0 < a)
    (p : SelPar) (hp : p = ⟨r.shortName, r.level, r.dataTime, r.dataDate, r.member⟩)
    (hinst : ∀ m ∈ file, named p m = true → m.stepType ≠ "accum".toList ∧ m.stepType ≠ "avg".toList)
    (E : Int) (hE : Spec.LastStep file p E) (hreg : Spec.StepsDiffer file p) (start hi : Int)
    (hst : start = r.tstart.getD 0) (hhi : hi = Spec.windowEnd r.tend E) (sel : List (GMsg (Arr n)))
    (hsel : sel = Spec.taken file p (max 0 (start - a)) hi)
    (nj : Int) (hnj : ∀ m ∈ sel, m.nj = nj) (hdiff : (sel.map GMsg.endStep).Nodup)
    (hmv : ∀ m ∈ sel, m.missingValue = .fin mv) (ref : Int × Nat) (href : ∀ m ∈ sel, reference m = some ref)
    (u : Str) (hu : ∀ m ∈ sel, m.get? "stepUnits".toList = some (.str u)) (hk : ∃ name, (u, name) ∈ gribUnits)
    (hconv : Means ne (r.conversion.map fun c => some c.1) f)
    (t : Table k) (ht : t = (s.tables r.mode r.latMap r.lonMap r.input).1) (hfit : Fits t n)
    (hex : ∃ m ∈ sel, hi ≤ m.endStep) (first : Int)
    (hfirst : first = extractFirst start a) (hsome : first ≤ hi)
    (mask : Fin k → Bool) (hmask : (s.clone r.clone).1 = some mask) :
    ∃ (d : Dataset k) (times : List Int), CommandRun.run ne s (Spec.argv items) = .stored d ∧
      Describes d o r.namePrefix ref fmt scale offset lo up ∧ TimesIn u req times d.time ∧
      (∀ (j : Nat) t, times[j]? = some t ↔ t = first + j * a ∧ t ≤ hi) ∧
      d.records.length = times.length ∧
      ∀ (j : Nat) w rec, times[j]? = some w → d.records[j]? = some rec →
        ∃ D : Arr n, (∀ i, D.masked i = false) ∧
          (if w = 0 ∧ (∀ m ∈ sel, m.endStep ≠ 0) then ∀ i, D.data i = 0
           else ∃ m ∈ sel, w ≤ m.endStep ∧ (∀ m' ∈ sel, w ≤ m'.endStep → m.endStep ≤ m'.endStep) ∧
             ∀ i, D.data i = (convertedField mv f m.values).data i) ∧
          ∀ c V, V = finalCell (r.correction.map fun q => (s.heights q.1 q.2.1 q.2.2).1) (cellOf t (s.mvOf r.latMap)
              (Spec.cutField ((r.conversion.map Prod.snd).getD false) D) c) c →
            Shows d lo up (mask c = true ∨ V = s.mvOf r.latMap) V (rec c) := by
  subst hp ht
  have e1 : (Spec.runOf s r).file = file := congrArg Prod.fst hfile
  have e2 : (Spec.runOf s r).indexable = true := congrArg Prod.snd hfile
  have e3 : (Spec.runOf s r).mask = some mask := hmask
  obtain ⟨d, times, h3, h4, h5, h6, h7, h8⟩ := netcdf_instantaneous_run ne (Spec.runOf s r) f mv e2 hup _ hagg rfl a rfl
    hpos (by rw [e1]; exact hinst) E (by rw [e1]; exact hE) (by rw [e1]; exact hreg) start hi hst hhi sel
    (by rw [e1]; exact hsel) nj hnj hdiff hmv ref href u hu hk hconv hfit hex first hfirst hsome (by rw [e3]; intro h; cases h) o ho
    req hreq
  refine ⟨d, times, ?_, h4, h5, h6, h7, fun j w rec hj hr => ?_⟩
  · rw [netcdf_core ne s items r hcom (by rw [hfmt]; decide) o hnc, decide_eq_true hfmt]
    exact netcdf_stored ne _ o d h3
  · obtain ⟨D, g1, g2, g5⟩ := h8 j w rec hj hr
    refine ⟨D, g1, g2, fun c V hV => ?_⟩
    have := g5 c V (by rw [CommandRun.cut_of]; exact hV)
    rw [e3] at this
    exact this

namespace Demo

/-- the instantaneous fields of `values`, with step units. -/
def valuesH : List (GMsg (Arr 2)) := rainH.map fun m => { m with stepType := "instant".toList }

theorem valuesH_last : LastStep valuesH (ncIn none none none).sel 18 := by
  constructor
  · exact ⟨{ fmsg "tp" 0 18 7 9 with other := noonH, stepType := "instant".toList },
      List.mem_map.2 ⟨{ fmsg "tp" 0 18 7 9 with other := noonH }, List.mem_map.2 ⟨fmsg "tp" 0 18 7 9, by unfold rain; simp, rfl⟩, rfl⟩,
      by decide +kernel, rfl⟩
  · decide +kernel

theorem valuesH_steps : StepsDiffer valuesH (ncIn none none none).sel := by
  refine ⟨by decide +kernel, ?_⟩
  intro m hm
  have := congrArg List.length hm
  have h3 : (valuesH.filter (named (ncIn none none none).sel)).length = 3 := by decide +kernel
  rw [h3] at this
  cases this

/-- the command of `nc_command` with another aggregation, on these messages. -/
def valuesNcSite (ag : JAggr × JVal) : Site 2 1 :=
  { ncSite with commands := fun _ => { ncCmd with aggr := some ag }, grib := fun _ => (valuesH, true) }

/-- the request. -/
def valuesNcReq (ao : AggrOpts) : Spec.Request := { ncReq with aggr := some ao }

/-- the data set asked for. -/
def valuesNcAsked (ao : AggrOpts) : NcOut := { ncAsked with path := "out/R_".toList ++ ao.type.toList ++ ".nc".toList }

theorem values_nc_command (ag : JAggr × JVal) (ao : AggrOpts) (h : Spec.AggrIn (some ag) (some ao)) :
    Spec.Command (valuesNcSite ag) rainItems (valuesNcReq ao) := by
  obtain ⟨cmd, h1, h2, h3⟩ := nc_command.file
  exact { nc_command with file := ⟨cmd, h1, h2, { h3 with aggr := h }⟩, acceptable := { nc_command.acceptable with } }

theorem values_nc_asked (ag : JAggr × JVal) (ao : AggrOpts) :
    Spec.NcCommand (valuesNcSite ag) rainItems (valuesNcReq ao) (valuesNcAsked ao) := by
  intro cmd hc
  have hp : "out/R_".toList ++ ao.type.toList ++ ".nc".toList =
      inFolder (valuesNcReq ao).outDir ("R".toList ++ "_".toList ++ ao.type.toList ++ ".nc".toList) := by
    have : inFolder (valuesNcReq ao).outDir ("R".toList ++ "_".toList ++ ao.type.toList ++ ".nc".toList) =
      "out/".toList ++ ("R".toList ++ "_".toList ++ ao.type.toList ++ ".nc".toList) := rfl
    rw [this]
    simp
  exact { nc_asked cmd hc with path := hp }

theorem valuesNcAsked_means (ao : AggrOpts) : NcMeans (valuesNcAsked ao) .i2 (1 / 2) 1 (some 0) none :=
  { ncAsked_means with }

/-- C160 and C161 as commands with netCDF output: three and two records. -/
example : (∃ d, CommandRun.run (fun _ => none) (valuesNcSite (⟨.int 6, .str "instantaneous".toList, none⟩, .null))
      (Spec.argv rainItems) = .stored d ∧ d.records.length = 3) ∧
    ∃ d, CommandRun.run (fun _ => none) (valuesNcSite (⟨.int 6, .str "average".toList, none⟩, .bool true))
      (Spec.argv rainItems) = .stored d ∧ d.records.length = 2 := by
  constructor
  · obtain ⟨d, times, hd, -, -, hget, hl, -⟩ := command_netcdf_instantaneous_run (fun _ => none) _ rainItems
      (valuesNcReq ⟨6, "instantaneous", false, false⟩)
      (values_nc_command (⟨.int 6, .str "instantaneous".toList, none⟩, .null) _
        (Or.inr ⟨_, _, 6, "instantaneous", false, rfl, Or.inl rfl, by decide, rfl, by decide, rfl, Or.inr (Or.inl ⟨rfl, rfl⟩)⟩)) rfl
      _ (values_nc_asked _ _) (valuesNcAsked_means _) (some "D".toList) (.inr ⟨_, rfl, rfl⟩) id (-9999) valuesH rfl
      (by decide +kernel) 6 false false rfl (by decide) _ rfl (by decide +kernel) 18 valuesH_last valuesH_steps 12 18
      rfl rfl _ rfl 10 (by decide +kernel) (by decide +kernel) (by decide +kernel) (20240501, 12) (by decide +kernel) "h".toList
      (by decide +kernel) hours (.inl ⟨.inr rfl, rfl⟩) _ rfl (fun _ => Nat.le_succ 1) (by decide +kernel) 6 (by decide)
      (by decide) (fun _ => false) rfl
    refine ⟨d, hd, ?_⟩
    rw [hl]
    have h1 : times[2]? = some 18 := (hget 2 18).2 (by decide)
    have h2 : ¬ (3 < times.length) := by
      intro h
      have := (hget 3 times[3]).1 (List.getElem?_eq_getElem h)
      omega
    have := (List.getElem?_eq_some_iff.1 h1).1
    omega
  · obtain ⟨d, times, hd, -, -, hget, hl, -⟩ := command_netcdf_half_weight_run (fun _ => none) _ rainItems
      (valuesNcReq ⟨6, "average", true, false⟩)
      (values_nc_command (⟨.int 6, .str "average".toList, none⟩, .bool true) _
        (Or.inr ⟨_, _, 6, "average", false, rfl, Or.inl rfl, by decide, rfl, by decide, rfl, Or.inr (Or.inl ⟨rfl, rfl⟩)⟩)) rfl
      _ (values_nc_asked _ _) (valuesNcAsked_means _) (some "D".toList) (.inr ⟨_, rfl, rfl⟩) id (-9999) valuesH rfl
      (by decide +kernel) 6 false rfl (by decide) _ rfl (by decide +kernel) 18 valuesH_last valuesH_steps 12 18
      rfl (by decide) rfl _ rfl 10 (by decide +kernel) (by decide +kernel) (by decide +kernel) (20240501, 12) (by decide +kernel)
      "h".toList (by decide +kernel) hours (.inl ⟨.inr rfl, rfl⟩) _ rfl (fun _ => Nat.le_succ 1)
      (fun h => absurd (congrArg List.length h) (by decide +kernel)) (by decide) (fun _ => false) rfl
    refine ⟨d, hd, ?_⟩
    rw [hl]
    have h1 : times[1]? = some 18 := (hget 1 18).2 (by decide)
    have h2 : ¬ (2 < times.length) := by
      intro h
      have := (hget 2 times[2]).1 (List.getElem?_eq_getElem h)
      omega
    have := (List.getElem?_eq_some_iff.1 h1).1
    omega

example : stored (CommandRun.run (fun _ => none) (valuesNcSite (⟨.int 6, .str "instantaneous".toList, none⟩, .null))
    (Spec.argv rainItems)) = some ("out/R_instantaneous.nc", [2, 8, 16], [1 / 4, 1 / 2, 3 / 4], some (-2)) := by decide +kernel

end Demo

end PyG2P
