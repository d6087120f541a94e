import Verif.Props.TwoGrids
import Verif.Props.NetcdfRun

/-! # netCDF output with a change of grid -/

namespace PyG2P
open Spec TableApply Converter Aggregator Reader
variable {n m k : Nat} {α : Type}

/-- The times of a run over two grids. -/
theorem two_times (ne : NumExpr) (r : RunIn n m k) (f : Num → Num) (mv : ℚ) (hmv : r.ctrl.msgs.mv = .fin mv)
    (hconv : Means ne r.conversion f) (s : Step) (hch : r.ctrl.msgs.changeResolutionStep = some s)
    (hse : s.startStep ≤ s.endStep) (h0 : 0 ≤ s.endStep) (hagg : r.ctrl.aggregate = true)
    (a : Int) (ha : r.ctrl.aggrStep = some a) (hpos : 0 < a) (ht : Intervals r.ctrl.aggrType r.ctrl.start)
    (hend : s.endStep + a < r.ctrl.end_)
    (values : Dict Step (Field n m)) (change : Option Step) (hf : r.fields ne = .ok (values, change)) :
    values.map (fun e => e.1.endStep) =
      rangeList (firstEnd r.ctrl.start a) (s.startStep + 1) a ++ rangeList (s.endStep + a) (r.ctrl.end_ + 1) a := by
  rw [fields_two ne r f mv hmv hconv] at hf
  obtain ⟨f1, f2, -, -, k1, k2, hp, -, -⟩ := two_resolutions_partial
    ({ convertedCtrl mv f r.ctrl with cutOff := cuts r } : CtrlIn n m) s a values change hch hagg ha hpos hse h0 ht hend hf
  change ∀ k, _ ↔ ∃ t, InRange (firstEnd r.ctrl.start a) s.startStep a t ∧ _ at k1
  change ∀ k, _ ↔ ∃ t, InRange (s.endStep + a) r.ctrl.end_ a t ∧ _ at k2
  have hlen : ∀ p ∈ values, p.1.startStep = p.1.endStep - a := by
    rintro ⟨q, v⟩ hq
    cases v with
    | inl v =>
      obtain ⟨t, -, rfl⟩ := (k1 q).1 ⟨v, hq⟩
      rfl
    | inr v =>
      obtain ⟨t, -, rfl⟩ := (k2 q).1 ⟨v, hq⟩
      rfl
  have hv : (values.map fun e => e.1.endStep).Pairwise (· < ·) := by
    rw [List.pairwise_map]
    refine List.Pairwise.imp_of_mem ?_ hp
    intro p q _ hq h
    rw [hlen q hq] at h
    omega
  have hr : (rangeList (firstEnd r.ctrl.start a) (s.startStep + 1) a ++
      rangeList (s.endStep + a) (r.ctrl.end_ + 1) a).Pairwise (· < ·) := by
    rw [List.pairwise_append]
    refine ⟨rangeList_pairwise hpos, rangeList_pairwise hpos, ?_⟩
    intro x hx y hy
    obtain ⟨_, -, h⟩ := (mem_rangeList hpos).1 hx
    obtain ⟨i, hi, -⟩ := (mem_rangeList hpos).1 hy
    have : 0 ≤ (i : Int) * a := Int.mul_nonneg (by omega) (by omega)
    omega
  have hperm : (values.map fun e => e.1.endStep).Perm (rangeList (firstEnd r.ctrl.start a) (s.startStep + 1) a ++
      rangeList (s.endStep + a) (r.ctrl.end_ + 1) a) := by
    rw [List.perm_ext_iff_of_nodup (hv.imp fun h => ne_of_lt h) (hr.imp fun h => ne_of_lt h)]
    intro t
    rw [List.mem_map, List.mem_append, mem_rangeList hpos, mem_rangeList hpos]
    constructor
    · rintro ⟨⟨q, v⟩, hq, rfl⟩
      cases v with
      | inl v =>
        obtain ⟨t, ⟨j, hj, hle⟩, rfl⟩ := (k1 q).1 ⟨v, hq⟩
        exact Or.inl ⟨j, hj, Int.lt_add_one_of_le hle⟩
      | inr v =>
        obtain ⟨t, ⟨j, hj, hle⟩, rfl⟩ := (k2 q).1 ⟨v, hq⟩
        exact Or.inr ⟨j, hj, Int.lt_add_one_of_le hle⟩
    · rintro (⟨j, hj, hle⟩ | ⟨j, hj, hle⟩)
      · obtain ⟨v, hv⟩ := (k1 _).2 ⟨t, ⟨j, hj, Int.le_of_lt_add_one hle⟩, rfl⟩
        exact ⟨_, hv, rfl⟩
      · obtain ⟨v, hv⟩ := (k2 _).2 ⟨t, ⟨j, hj, Int.le_of_lt_add_one hle⟩, rfl⟩
        exact ⟨_, hv, rfl⟩
  exact List.Perm.eq_of_pairwise (le := (· ≤ ·)) (fun a b _ _ h1 h2 => le_antisymm h1 h2)
    (hv.imp fun h => le_of_lt h) (hr.imp fun h => le_of_lt h) hperm

/-- The positions in the times of two grids. -/
theorem two_times_get {lo c d hi a : Int} (hpos : 0 < a) {n1 n2 : Nat} (h1 : ∀ j : Nat, j < n1 ↔ lo + j * a ≤ c)
    (h2 : ∀ j : Nat, j < n2 ↔ d + j * a ≤ hi) :
    (rangeList lo (c + 1) a).length = n1 ∧ (rangeList d (hi + 1) a).length = n2 ∧
    ∀ (j : Nat) t, (rangeList lo (c + 1) a ++ rangeList d (hi + 1) a)[j]? = some t ↔
      (j < n1 ∧ t = lo + j * a) ∨ ∃ i : Nat, j = n1 + i ∧ i < n2 ∧ t = d + i * a := by
  have hl : ∀ {p q : Int} {l : Nat}, (∀ j : Nat, j < l ↔ p + j * a ≤ q) → (rangeList p (q + 1) a).length = l := by
    intro p q l h
    refine Nat.le_antisymm ?_ ?_
    · by_contra hlt
      have := (h l).2 (by have := rangeList_length_le (a := p) (b := q + 1) hpos l (by omega); omega)
      omega
    · by_contra hlt
      have := (h (rangeList p (q + 1) a).length).1 (by omega)
      have := rangeList_get (b := q + 1) hpos (rangeList p (q + 1) a).length (by omega : p + _ * a < q + 1)
      have := (List.getElem?_eq_some_iff.1 this).1
      omega
  have l1 := hl h1
  have l2 := hl h2
  refine ⟨l1, l2, fun j t => ?_⟩
  by_cases hj : j < n1
  · rw [List.getElem?_append_left (by omega), rangeList_get hpos j (by have := (h1 j).1 hj; omega)]
    constructor
    · intro h
      exact Or.inl ⟨hj, (Option.some.inj h).symm⟩
    · rintro (⟨-, rfl⟩ | ⟨i, h, -⟩)
      · rfl
      · omega
  · obtain ⟨i, rfl⟩ := Nat.exists_eq_add_of_le (Nat.le_of_not_lt hj)
    rw [List.getElem?_append_right (by omega), l1, Nat.add_sub_cancel_left]
    constructor
    · intro h
      have hlt := (List.getElem?_eq_some_iff.1 h).1
      rw [l2] at hlt
      rw [rangeList_get hpos i (by have := (h2 i).1 hlt; omega)] at h
      exact Or.inr ⟨i, rfl, hlt, (Option.some.inj h).symm⟩
    · rintro (⟨h, -⟩ | ⟨i', h, hlt, rfl⟩)
      · omega
      · obtain rfl : i = i' := by omega
        exact rangeList_get hpos i (by have := (h2 i).1 hlt; omega)

/-- The data set of a run over two grids whose maps are known. -/
theorem two_grid_dataset (ne : NumExpr) (x : FileIn n k) (r : RunIn n m k) (o : NcOut) {fmt : ValueFormat}
    {scale offset : ℚ} {lo up : Option ℚ} (ho : NcMeans o fmt scale offset lo up) (hm : x.mask ≠ none)
    (hrx : r.mask = x.mask ∧ r.mvOut = x.mvOut) (f : Num → Num) (mv : ℚ) (hmv : r.ctrl.msgs.mv = .fin mv)
    (hconv : Means ne r.conversion f) (s : Step) (hch : r.ctrl.msgs.changeResolutionStep = some s)
    (hse : s.startStep ≤ s.endStep) (h0 : 0 ≤ s.endStep) (hagg : r.ctrl.aggregate = true)
    (a : Int) (ha : r.ctrl.aggrStep = some a) (hpos : 0 < a) (ht : Intervals r.ctrl.aggrType r.ctrl.start)
    (hend : s.endStep + a < r.ctrl.end_) (files : List (Str × (Fin k → Num)))
    (hfiles : ({ r with mask := none, mvClone := .nan } : RunIn n m k).pcraster ne = .ok files)
    {n1 n2 : Nat} (hlen : files.length = n1 + n2)
    (h1 : ∀ j : Nat, j < n1 ↔ firstEnd r.ctrl.start a + j * a ≤ s.startStep)
    (h2 : ∀ j : Nat, j < n2 ↔ s.endStep + a + j * a ≤ r.ctrl.end_)
    (m0 : GMsg (Arr n)) (ref : Int × Nat) (href : reference m0 = some ref)
    (u : Str) (hu : m0.get? "stepUnits".toList = some (.str u)) (hk : ∃ name, (u, name) ∈ gribUnits)
    (req : Option Str) (hreq : unitAsked o.stepUnits req) :
    ∃ (d : Dataset k) (times : List Int) (ms : List (Int × Arr k)), r.maps ne = .ok ms ∧
      x.record o r m0 ms = .ok (some d) ∧ Describes d o x.namePrefix ref fmt scale offset lo up ∧
      TimesIn u req times d.time ∧ times.length = n1 + n2 ∧ d.records.length = n1 + n2 ∧
      (∀ j : Nat, j < n1 → times[j]? = some (firstEnd r.ctrl.start a + j * a)) ∧
      (∀ j : Nat, j < n2 → times[n1 + j]? = some (s.endStep + a + j * a)) ∧
      ∀ (j : Nat) file rec, files[j]? = some file → d.records[j]? = some rec → ∀ c,
        Shows d lo up (outside x.mask c = true ∨ file.2 c = x.mvOut) (file.2 c) (rec c) := by
  have hne : files ≠ [] := by
    intro h
    rw [h] at hlen
    have := (h2 0).2 (by omega)
    change 0 = _ at hlen
    omega
  obtain ⟨d, values, change, ms, hf, hms, hrec, hdesc, htime, hrl, hvl, hshow⟩ := record_of_maps ne x r o ho hm hrx files
    hfiles hne m0 ref href u hu hk req hreq
  have htimes := two_times ne r f mv hmv hconv s hch hse h0 hagg a ha hpos ht hend values change hf
  obtain ⟨l1, l2, hget⟩ := two_times_get hpos h1 h2
  rw [htimes] at htime
  exact ⟨d, _, ms, hms, hrec, hdesc, htime, by rw [List.length_append, l1, l2], hrl.trans hlen,
    fun j hj => (hget j _).2 (Or.inl ⟨hj, rfl⟩), fun j hj => (hget _ _).2 (Or.inr ⟨j, rfl, hj, rfl⟩), hshow⟩

/-- The data set of a run on a file with a change of grid whose maps are known. -/
theorem change_dataset (ne : NumExpr) (x : FileIn n k) (f : Num → Num) (mv : ℚ) (hidx : x.indexable = true)
    (hup : x.sel.shortName.map Char.toUpper ≠ x.sel.shortName)
    (hsame : ∀ w ∈ x.file, asksFor x.sel w = true → w.shortName = x.sel.shortName)
    (ao : AggrOpts) (hagg : x.aggr = some ao) (a : Int) (ha : ao.step = a) (hpos : 0 < a)
    (E : Int) (hE : LastStep x.file x.sel E) (hreg : StepsDiffer x.file x.sel) (start hi : Int)
    (hst : start = x.tstart.getD 0) (hty : Intervals ao.type start) (hhi : hi = windowEnd x.tend E)
    (sel l1 l2 : List (GMsg (Arr n))) (c : GMsg (Arr n)) (hsel : sel = taken x.file x.sel (max 0 (start - a)) hi)
    (hch : GridChange sel l1 l2 c) (hd1 : (l1.map GMsg.endStep).Nodup) (hd2 : (l2.map GMsg.endStep).Nodup)
    (hmv : ∀ q ∈ sel, q.missingValue = .fin mv) (ref : Int × Nat) (href : ∀ q ∈ sel, reference q = some ref)
    (u : Str) (hu : ∀ q ∈ sel, q.get? "stepUnits".toList = some (.str u)) (hk : ∃ name, (u, name) ∈ gribUnits)
    (hconv : Means ne x.conversion f)
    (hse : c.startStep ≤ c.endStep) (h0 : 0 ≤ c.endStep) (hend : c.endStep + a < hi) (hm : x.mask ≠ none)
    (o : NcOut) {fmt : ValueFormat} {scale offset : ℚ} {lo up : Option ℚ} (ho : NcMeans o fmt scale offset lo up)
    (req : Option Str) (hreq : unitAsked o.stepUnits req) (files : List (Str × (Fin k → Num)))
    (hfiles : x.bare.pcraster ne = .ok files) {n1 n2 : Nat} (hlen : files.length = n1 + n2)
    (h1 : ∀ j : Nat, j < n1 ↔ firstEnd start a + j * a ≤ c.startStep)
    (h2 : ∀ j : Nat, j < n2 ↔ c.endStep + a + j * a ≤ hi) :
    ∃ (d : Dataset k) (times : List Int), x.dataset ne o = .ok (some d) ∧
      Describes d o x.namePrefix ref fmt scale offset lo up ∧
      TimesIn u req times d.time ∧ times.length = n1 + n2 ∧ d.records.length = n1 + n2 ∧
      (∀ j : Nat, j < n1 → times[j]? = some (firstEnd start a + j * a)) ∧
      (∀ j : Nat, j < n2 → times[n1 + j]? = some (c.endStep + a + j * a)) ∧
      ∀ (j : Nat) file rec, files[j]? = some file → d.records[j]? = some rec → ∀ i,
        Shows d lo up (outside x.mask i = true ∨ file.2 i = x.mvOut) (file.2 i) (rec i) := by
  subst hsel
  have hwin : ∀ step, (StepsDiffer x.file x.sel → step ≠ 0) →
      readerWindow x.tstart x.tend (x.aggr.map AggrOpts.step) step E = (max 0 (start - a), hi) := fun step h => by
    rw [hagg, hst, hhi, ← ha]
    exact window_aggr x.tstart x.tend ao.step step E (h hreg)
  have hin1 : ∀ q ∈ l1, q ∈ taken x.file x.sel (max 0 (start - a)) hi := fun q hq => by
    rw [hch.parts]; exact List.mem_append_left _ hq
  obtain ⟨info, t2, msgs, s, hs, hend', ht2, hmvs, hmap, hmap2, hcr, hcs1, hcs2, hfs⟩ := change_settings x hidx hup hsame
    E hE _ _ hwin l1 l2 c hch (differ_of_ends hd1) (differ_of_ends hd2) mv (fun q hq => hmv q (hin1 q hq))
    (fun q hq => by rw [href q (hin1 q hq)]; rfl)
  have hr := range_eq x info
  rw [hend'] at hr
  have hrs : (x.assemble info t2 msgs).ctrl.start = start := by
    rw [hst]; exact congrArg Prod.fst hr
  have hre : (x.assemble info t2 msgs).ctrl.end_ = hi := by
    rw [hhi]; exact congrArg Prod.snd hr
  obtain ⟨m0, l1', hl1⟩ := List.exists_cons_of_ne_nil hch.some_first
  have hm0 : m0 ∈ taken x.file x.sel (max 0 (start - a)) hi := hin1 m0 (by rw [hl1]; exact List.mem_cons_self ..)
  rw [hl1] at hfs
  unfold FileIn.pcraster at hfiles
  rw [bare_settings, hs] at hfiles
  have hd := two_grid_dataset ne x (x.assemble info t2 msgs) o ho hm ⟨rfl, rfl⟩ f mv hmvs hconv s hcr
    (by rw [hcs1, hcs2]; exact hse) (by rw [hcs2]; exact h0)
    (by show x.aggr.isSome = true; rw [hagg]; rfl) a
    (by show x.aggr.map AggrOpts.step = some a; rw [hagg, ← ha]; rfl) hpos
    (by
      rw [hrs]
      show Intervals ((x.aggr.map AggrOpts.type).getD "") start
      rw [hagg]
      exact hty)
    (by rw [hcs2, hre]; exact hend) files hfiles hlen (by rw [hrs, hcs1]; exact h1) (by rw [hre, hcs2]; exact h2) m0 ref
    (href m0 hm0) u (hu m0 hm0) hk req hreq
  obtain ⟨d, times, ms, hms, hrec, e1, e2, e3, e4, e5, e6, e7⟩ := hd
  rw [hrs] at e5
  rw [hcs2] at e6
  refine ⟨d, times, ?_, e1, e2, e3, e4, e5, e6, e7⟩
  unfold FileIn.dataset
  rw [hs]
  dsimp only
  rw [hms]
  dsimp only
  rw [hfs]
  exact hrec

/-- **C163**, accumulation. C162 with netCDF output, when the clone has masked cells (C85). One data set for both grids:
first one record for each interval of the first grid, then one for each interval of the second, with the times at which
the intervals end; each record shows the map of C162. -/
theorem change_netcdf_accumulation (ne : NumExpr) (x : FileIn n k) (f : Num → Num) (mv : ℚ) (hidx : x.indexable = true)
    (hup : x.sel.shortName.map Char.toUpper ≠ x.sel.shortName)
    (hsame : ∀ w ∈ x.file, asksFor x.sel w = true → w.shortName = x.sel.shortName)
    (ao : AggrOpts) (hagg : x.aggr = some ao)
    (hty : ao.type = "accumulation") (a : Int) (ha : ao.step = a) (hpos : 0 < a)
    (E : Int) (hE : LastStep x.file x.sel E) (hreg : StepsDiffer x.file x.sel) (start hi : Int)
    (hst : start = x.tstart.getD 0) (hhi : hi = windowEnd x.tend E)
    (sel l1 l2 : List (GMsg (Arr n))) (c : GMsg (Arr n)) (hsel : sel = taken x.file x.sel (max 0 (start - a)) hi)
    (hch : GridChange sel l1 l2 c) (hd1 : (l1.map GMsg.endStep).Nodup) (hd2 : (l2.map GMsg.endStep).Nodup)
    (hmv : ∀ q ∈ sel, q.missingValue = .fin mv) (ref : Int × Nat) (href : ∀ q ∈ sel, reference q = some ref)
    (u : Str) (hu : ∀ q ∈ sel, q.get? "stepUnits".toList = some (.str u)) (hk : ∃ name, (u, name) ∈ gribUnits)
    (hconv : Means ne x.conversion f) (hfit : Fits x.table n) (hfit2 : Fits x.table2 n)
    (hse : c.startStep ≤ c.endStep) (h0 : 0 ≤ c.endStep) (hend : c.endStep + a < hi)
    (hcur : ∀ t, InRange (firstEnd start a) c.startStep a t →
      (∃ q ∈ l1, q.endStep = t) ∧ (t - a = 0 ∨ ∃ q ∈ l1, q.endStep = t - a))
    (hcur2 : ∀ t, InRange (c.endStep + a) hi a t →
      (∃ q ∈ l2, q.endStep = t) ∧ (t - a = 0 ∨ ∃ q ∈ l2, q.endStep = t - a)) (hm : x.mask ≠ none)
    (o : NcOut) {fmt : ValueFormat} {scale offset : ℚ} {lo up : Option ℚ} (ho : NcMeans o fmt scale offset lo up)
    (req : Option Str) (hreq : unitAsked o.stepUnits req) :
    ∃ (d : Dataset k) (times : List Int) (n1 n2 : Nat), x.dataset ne o = .ok (some d) ∧
      Describes d o x.namePrefix ref fmt scale offset lo up ∧ TimesIn u req times d.time ∧
      times.length = n1 + n2 ∧ d.records.length = n1 + n2 ∧
      (∀ j : Nat, j < n1 ↔ firstEnd start a + j * a ≤ c.startStep) ∧
      (∀ j : Nat, j < n2 ↔ c.endStep + a + j * a ≤ hi) ∧
      (∀ (j : Nat) t, t = firstEnd start a + j * a → t ≤ c.startStep → times[j]? = some t ∧
        ∃ D rec, AccumulatedFrom mv f l1 ao.forceZero x.unitTime a t D ∧ d.records[j]? = some rec ∧
          ∀ i V, V = finalCell x.height (cellOf x.table x.mvOut
              (Spec.cutField (x.conversion.isSome && x.cutOff) D) i) i →
            Shows d lo up (outside x.mask i = true ∨ V = x.mvOut) V (rec i)) ∧
      ∀ (j : Nat) t, t = c.endStep + a + j * a → t ≤ hi → times[n1 + j]? = some t ∧
        ∃ D rec, AccumulatedFrom mv f l2 ao.forceZero x.unitTime a t D ∧ d.records[n1 + j]? = some rec ∧
          ∀ i V, V = finalCell x.height2 (cellOf x.table2 x.mvOut
              (Spec.cutField (x.conversion.isSome && x.cutOff) D) i) i →
            Shows d lo up (outside x.mask i = true ∨ V = x.mvOut) V (rec i) := by
  obtain ⟨files, n1, n2, g1, g2, g3, g4, g5, g6⟩ := change_accumulation_run ne x.bare f mv hidx hup hsame ao hagg hty a
    ha hpos E hE hreg start hi hst hhi sel l1 l2 c hsel hch hd1 hd2 hmv (fun q h => by rw [href q h]; rfl) hconv hfit hfit2
    hse h0 hend hcur hcur2
  obtain ⟨d, times, e0, e1, e2, e3, e4, e5, e6, e7⟩ := change_dataset ne x f mv hidx hup hsame ao hagg a ha hpos E hE hreg
    start hi hst (Or.inl hty) hhi sel l1 l2 c hsel hch hd1 hd2 hmv ref href u hu hk hconv hse h0 hend hm o ho req hreq files g1
    g2 g3 g4
  refine ⟨d, times, n1, n2, e0, e1, e2, e3, e4, g3, g4, ?_, ?_⟩
  · intro j t ht hle
    obtain ⟨D, hD, hf⟩ := g5 j t ht hle
    have hj : j < n1 := (g3 j).2 (by rw [← ht]; exact hle)
    have hjr : j < d.records.length := by omega
    refine ⟨by rw [ht]; exact e5 j hj, D, d.records[j], hD, List.getElem?_eq_getElem hjr, ?_⟩
    intro i V hV
    have := e7 j _ _ hf (List.getElem?_eq_getElem hjr) i
    dsimp only at this
    change Shows d lo up (outside x.mask i = true ∨ shown none .nan _ i = x.mvOut) (shown none .nan _ i) _ at this
    rw [shown_bare] at this
    rw [hV]
    exact this
  · intro j t ht hle
    obtain ⟨D, hD, hf⟩ := g6 j t ht hle
    have hj : j < n2 := (g4 j).2 (by rw [← ht]; exact hle)
    have hjr : n1 + j < d.records.length := by omega
    refine ⟨by rw [ht]; exact e6 j hj, D, d.records[n1 + j], hD, List.getElem?_eq_getElem hjr, ?_⟩
    intro i V hV
    have := e7 (n1 + j) _ _ hf (List.getElem?_eq_getElem hjr) i
    dsimp only at this
    change Shows d lo up (outside x.mask i = true ∨ shown none .nan _ i = x.mvOut) (shown none .nan _ i) _ at this
    rw [shown_bare] at this
    rw [hV]
    exact this

/-- **C163**, average (without half weights, from a start different from 0, of messages that are not accumulated). -/
theorem change_netcdf_average (ne : NumExpr) (x : FileIn n k) (f : Num → Num) (mv : ℚ) (hidx : x.indexable = true)
    (hup : x.sel.shortName.map Char.toUpper ≠ x.sel.shortName)
    (hsame : ∀ w ∈ x.file, asksFor x.sel w = true → w.shortName = x.sel.shortName)
    (ao : AggrOpts) (hagg : x.aggr = some ao)
    (hty : ao.type = "average") (hh : ao.halfweights = false) (a : Int) (ha : ao.step = a) (hpos : 0 < a)
    (hinst : ∀ q ∈ x.file, String.ofList q.stepType ≠ "accum")
    (E : Int) (hE : LastStep x.file x.sel E) (hreg : StepsDiffer x.file x.sel) (start hi : Int)
    (hst : start = x.tstart.getD 0) (hstart : start ≠ 0) (hhi : hi = windowEnd x.tend E)
    (sel l1 l2 : List (GMsg (Arr n))) (c : GMsg (Arr n)) (hsel : sel = taken x.file x.sel (max 0 (start - a)) hi)
    (hch : GridChange sel l1 l2 c) (hd1 : (l1.map GMsg.endStep).Nodup) (hd2 : (l2.map GMsg.endStep).Nodup)
    (hmv : ∀ q ∈ sel, q.missingValue = .fin mv) (ref : Int × Nat) (href : ∀ q ∈ sel, reference q = some ref)
    (u : Str) (hu : ∀ q ∈ sel, q.get? "stepUnits".toList = some (.str u)) (hk : ∃ name, (u, name) ∈ gribUnits)
    (hconv : Means ne x.conversion f) (hfit : Fits x.table n) (hfit2 : Fits x.table2 n)
    (hse : c.startStep ≤ c.endStep) (h0 : 0 ≤ c.endStep) (hend : c.endStep + a < hi)
    (hex : ∃ q ∈ l1, c.startStep ≤ q.endStep) (hex2 : ∃ q ∈ l2, hi ≤ q.endStep) (hm : x.mask ≠ none)
    (o : NcOut) {fmt : ValueFormat} {scale offset : ℚ} {lo up : Option ℚ} (ho : NcMeans o fmt scale offset lo up)
    (req : Option Str) (hreq : unitAsked o.stepUnits req) :
    ∃ (d : Dataset k) (times : List Int) (n1 n2 : Nat), x.dataset ne o = .ok (some d) ∧
      Describes d o x.namePrefix ref fmt scale offset lo up ∧ TimesIn u req times d.time ∧
      times.length = n1 + n2 ∧ d.records.length = n1 + n2 ∧
      (∀ j : Nat, j < n1 ↔ start + j * a ≤ c.startStep) ∧
      (∀ j : Nat, j < n2 ↔ c.endStep + a + j * a ≤ hi) ∧
      (∀ (j : Nat) t, t = start + j * a → t ≤ c.startStep → times[j]? = some t ∧
        ∃ D rec, MeanFrom mv f l1 a t D ∧ d.records[j]? = some rec ∧
          ∀ i V, V = finalCell x.height (cellOf x.table x.mvOut
              (Spec.cutField (x.conversion.isSome && x.cutOff) D) i) i →
            Shows d lo up (outside x.mask i = true ∨ V = x.mvOut) V (rec i)) ∧
      ∀ (j : Nat) t, t = c.endStep + a + j * a → t ≤ hi → times[n1 + j]? = some t ∧
        ∃ D rec, MeanFrom mv f l2 a t D ∧ d.records[n1 + j]? = some rec ∧
          ∀ i V, V = finalCell x.height2 (cellOf x.table2 x.mvOut
              (Spec.cutField (x.conversion.isSome && x.cutOff) D) i) i →
            Shows d lo up (outside x.mask i = true ∨ V = x.mvOut) V (rec i) := by
  obtain ⟨files, n1, n2, g1, g2, g3, g4, g5, g6⟩ := change_average_run ne x.bare f mv hidx hup hsame ao hagg hty hh a
    ha hpos hinst E hE hreg start hi hst hstart hhi sel l1 l2 c hsel hch hd1 hd2 hmv (fun q h => by rw [href q h]; rfl)
    hconv hfit hfit2 hse h0 hend hex hex2
  have hfe : firstEnd start a = start := by
    unfold firstEnd
    rw [if_neg hstart]
  obtain ⟨d, times, e0, e1, e2, e3, e4, e5, e6, e7⟩ := change_dataset ne x f mv hidx hup hsame ao hagg a ha hpos E hE hreg
    start hi hst (Or.inr ⟨hty, hstart⟩) hhi sel l1 l2 c hsel hch hd1 hd2 hmv ref href u hu hk hconv hse h0 hend hm o ho req hreq files g1
    g2 (by rw [hfe]; exact g3) g4
  rw [hfe] at e5
  refine ⟨d, times, n1, n2, e0, e1, e2, e3, e4, g3, g4, ?_, ?_⟩
  · intro j t ht hle
    obtain ⟨D, hD, hf⟩ := g5 j t ht hle
    have hj : j < n1 := (g3 j).2 (by rw [← ht]; exact hle)
    have hjr : j < d.records.length := by omega
    refine ⟨by rw [ht]; exact e5 j hj, D, d.records[j], hD, List.getElem?_eq_getElem hjr, ?_⟩
    intro i V hV
    have := e7 j _ _ hf (List.getElem?_eq_getElem hjr) i
    dsimp only at this
    change Shows d lo up (outside x.mask i = true ∨ shown none .nan _ i = x.mvOut) (shown none .nan _ i) _ at this
    rw [shown_bare] at this
    rw [hV]
    exact this
  · intro j t ht hle
    obtain ⟨D, hD, hf⟩ := g6 j t ht hle
    have hj : j < n2 := (g4 j).2 (by rw [← ht]; exact hle)
    have hjr : n1 + j < d.records.length := by omega
    refine ⟨by rw [ht]; exact e6 j hj, D, d.records[n1 + j], hD, List.getElem?_eq_getElem hjr, ?_⟩
    intro i V hV
    have := e7 (n1 + j) _ _ hf (List.getElem?_eq_getElem hjr) i
    dsimp only at this
    change Shows d lo up (outside x.mask i = true ∨ shown none .nan _ i = x.mvOut) (shown none .nan _ i) _ at this
    rw [shown_bare] at this
    rw [hV]
    exact this

/-! ## Two files -/

/-- The settings of a bare run on two files. -/
theorem bare_settings_two (x : FileIn n k) (y : SecondFile m) : x.bare.settingsTwo y =
    (x.settingsTwo y).map fun r => { r with mask := none, mvClone := .nan } := by
  unfold FileIn.settingsTwo
  have e1 : x.bare.reader = x.reader := rfl
  have e2 : x.bare.file = x.file := rfl
  have e3 : x.bare.sel = x.sel := rfl
  have e4 : x.bare.tstart = x.tstart := rfl
  have e5 : x.bare.tend = x.tend := rfl
  have e6 : x.bare.aggr = x.aggr := rfl
  rw [e1, e2, e3, e4, e5, e6]
  generalize Reader.gribInfo x.file x.reader (infoCmd x.sel) = g
  obtain ⟨i, r1⟩ := g
  cases i with
  | error e => rfl
  | ok info =>
    dsimp only
    generalize selectCmd x.sel (readerWindow x.tstart x.tend (x.aggr.map AggrOpts.step) info.step info.end_).1
      (readerWindow x.tstart x.tend (x.aggr.map AggrOpts.step) info.step info.end_).2 = kw
    generalize Reader.select x.file r1 kw = g
    obtain ⟨i, r2⟩ := g
    cases i with
    | error e => rfl
    | ok sl =>
      dsimp only
      generalize FileIn.firstTime x.file r1 kw = g
      cases g with
      | error e => rfl
      | ok q =>
        dsimp only
        have e7 : MsgSet.init sl.first (x.bare.selectedMv r1 kw) (x.bare.grid sl) sl.second =
          MsgSet.init sl.first (x.selectedMv r1 kw) (x.grid sl) sl.second := rfl
        rw [e7]
        generalize MsgSet.init sl.first (x.selectedMv r1 kw) (x.grid sl) sl.second = g
        cases g with
        | error e => rfl
        | ok msgs =>
          dsimp only
          have e8 : x.bare.readSecond y kw = x.readSecond y kw := rfl
          rw [e8]
          generalize x.readSecond y kw = g
          cases g with
          | error e => rfl
          | ok msgs2 => rfl

/-- The data set of a run on two files whose maps are known. -/
theorem two_file_dataset (ne : NumExpr) (x : FileIn n k) (y : SecondFile m) (f : Num → Num) (mv : ℚ)
    (hidx : x.indexable = true) (hidx2 : y.indexable = true)
    (hup : x.sel.shortName.map Char.toUpper ≠ x.sel.shortName) (ao : AggrOpts) (hagg : x.aggr = some ao)
    (a : Int) (ha : ao.step = a) (hpos : 0 < a)
    (E : Int) (hE : LastStep x.file x.sel E) (hreg : StepsDiffer x.file x.sel) (start hi : Int)
    (hst : start = x.tstart.getD 0) (hty : Intervals ao.type start) (hhi : hi = windowEnd x.tend E)
    (sel : List (GMsg (Arr n))) (hsel : sel = taken x.file x.sel (max 0 (start - a)) hi) (hne : sel ≠ [])
    (sel2 : List (GMsg (Arr m))) (hsel2 : sel2 = taken y.file x.sel (max 0 (start - a)) hi)
    (nj : Int) (hnj : ∀ q ∈ sel, q.nj = nj) (hdiff : (sel.map GMsg.endStep).Nodup)
    (nj2 : Int) (hnj2 : ∀ q ∈ sel2, q.nj = nj2) (hdiff2 : (sel2.map GMsg.endStep).Nodup)
    (hmv : ∀ q ∈ sel, q.missingValue = .fin mv) (ref : Int × Nat) (href : ∀ q ∈ sel, reference q = some ref)
    (u : Str) (hu : ∀ q ∈ sel, q.get? "stepUnits".toList = some (.str u)) (hk : ∃ name, (u, name) ∈ gribUnits)
    (hdate2 : ∀ q ∈ sel2, (reference q).isSome = true) (hconv : Means ne x.conversion f)
    (c : GMsg (Arr m)) (hc : c ∈ sel2) (hcmin : ∀ q ∈ sel2, c.endStep ≤ q.endStep)
    (hse : c.startStep ≤ c.endStep) (h0 : 0 ≤ c.endStep) (hend : c.endStep + a < hi)
    (hm : x.mask ≠ none)
    (o : NcOut) {fmt : ValueFormat} {scale offset : ℚ} {lo up : Option ℚ} (ho : NcMeans o fmt scale offset lo up)
    (req : Option Str) (hreq : unitAsked o.stepUnits req) (files : List (Str × (Fin k → Num)))
    (hfiles : x.bare.pcrasterTwo ne y = .ok files) {n1 n2 : Nat} (hlen : files.length = n1 + n2)
    (h1 : ∀ j : Nat, j < n1 ↔ firstEnd start a + j * a ≤ c.startStep)
    (h2 : ∀ j : Nat, j < n2 ↔ c.endStep + a + j * a ≤ hi) :
    ∃ (d : Dataset k) (times : List Int), x.datasetTwo ne y o = .ok (some d) ∧
      Describes d o x.namePrefix ref fmt scale offset lo up ∧
      TimesIn u req times d.time ∧ times.length = n1 + n2 ∧ d.records.length = n1 + n2 ∧
      (∀ j : Nat, j < n1 → times[j]? = some (firstEnd start a + j * a)) ∧
      (∀ j : Nat, j < n2 → times[n1 + j]? = some (c.endStep + a + j * a)) ∧
      ∀ (j : Nat) file rec, files[j]? = some file → d.records[j]? = some rec → ∀ i,
        Shows d lo up (outside x.mask i = true ∨ file.2 i = x.mvOut) (file.2 i) (rec i) := by
  have hwin : ∀ step, (StepsDiffer x.file x.sel → step ≠ 0) →
      readerWindow x.tstart x.tend (x.aggr.map AggrOpts.step) step E = (max 0 (start - a), hi) := fun step h => by
    rw [hagg, hst, hhi, ← ha]
    exact window_aggr x.tstart x.tend ao.step step E (h hreg)
  obtain ⟨m0, hm0, hfs⟩ := first_selected x hidx hup E hE _ _ hwin (by rw [← hsel]; exact hne) nj
    (by rw [← hsel]; exact hnj) (by rw [← hsel]; exact differ_of_ends hdiff)
  rw [← hsel] at hm0
  obtain ⟨info, t2, msgs, msgs2, ms, ms2, hs, hrs, hre, -, hmvs, -, -, -, -, hcs1, hcs2⟩ :=
    two_file_settings x y mv hidx hidx2 hup ao hagg a ha E hE hreg start hi hst hhi sel hsel hne sel2 hsel2 nj hnj hdiff
      nj2 hnj2 hdiff2 hmv (fun q h => by rw [href q h]; rfl) hdate2 c hc hcmin
  change (x.assemble info t2 (msgs.append2nd msgs2)).ctrl.start = start at hrs
  change (x.assemble info t2 (msgs.append2nd msgs2)).ctrl.end_ = hi at hre
  unfold FileIn.pcrasterTwo at hfiles
  rw [bare_settings_two, hs] at hfiles
  have hd := two_grid_dataset ne x (x.assemble info t2 (msgs.append2nd msgs2)) o ho hm ⟨rfl, rfl⟩ f mv hmvs hconv
    msgs2.firstStep rfl (by rw [hcs1, hcs2]; exact hse) (by rw [hcs2]; exact h0)
    (by show x.aggr.isSome = true; rw [hagg]; rfl) a
    (by show x.aggr.map AggrOpts.step = some a; rw [hagg, ← ha]; rfl) hpos
    (by
      rw [hrs]
      show Intervals ((x.aggr.map AggrOpts.type).getD "") start
      rw [hagg]
      exact hty)
    (by rw [hcs2, hre]; exact hend) files hfiles hlen (by rw [hrs, hcs1]; exact h1) (by rw [hre, hcs2]; exact h2) m0 ref
    (href m0 hm0) u (hu m0 hm0) hk req hreq
  obtain ⟨d, times, ms, hms, hrec, e1, e2, e3, e4, e5, e6, e7⟩ := hd
  rw [hrs] at e5
  rw [hcs2] at e6
  refine ⟨d, times, ?_, e1, e2, e3, e4, e5, e6, e7⟩
  unfold FileIn.datasetTwo
  rw [hs]
  dsimp only
  rw [hms]
  dsimp only
  rw [hfs]
  exact hrec

/-- **C164**, accumulation. C137 with netCDF output, when the clone has masked cells (C85): one data set for both files,
first the intervals of the first file, then those of the second, with the times at which they end counted from the
reference time of the first file. -/
theorem two_file_netcdf_accumulation (ne : NumExpr) (x : FileIn n k) (y : SecondFile m) (f : Num → Num) (mv : ℚ)
    (hidx : x.indexable = true) (hidx2 : y.indexable = true)
    (hup : x.sel.shortName.map Char.toUpper ≠ x.sel.shortName) (ao : AggrOpts) (hagg : x.aggr = some ao)
    (hty : ao.type = "accumulation") (a : Int) (ha : ao.step = a) (hpos : 0 < a)
    (E : Int) (hE : LastStep x.file x.sel E) (hreg : StepsDiffer x.file x.sel) (start hi : Int)
    (hst : start = x.tstart.getD 0) (hhi : hi = windowEnd x.tend E)
    (sel : List (GMsg (Arr n))) (hsel : sel = taken x.file x.sel (max 0 (start - a)) hi) (hne : sel ≠ [])
    (sel2 : List (GMsg (Arr m))) (hsel2 : sel2 = taken y.file x.sel (max 0 (start - a)) hi)
    (nj : Int) (hnj : ∀ q ∈ sel, q.nj = nj) (hdiff : (sel.map GMsg.endStep).Nodup)
    (nj2 : Int) (hnj2 : ∀ q ∈ sel2, q.nj = nj2) (hdiff2 : (sel2.map GMsg.endStep).Nodup)
    (hmv : ∀ q ∈ sel, q.missingValue = .fin mv) (ref : Int × Nat) (href : ∀ q ∈ sel, reference q = some ref)
    (u : Str) (hu : ∀ q ∈ sel, q.get? "stepUnits".toList = some (.str u)) (hk : ∃ name, (u, name) ∈ gribUnits)
    (hdate2 : ∀ q ∈ sel2, (reference q).isSome = true) (hconv : Means ne x.conversion f)
    (hfit : Fits x.table n) (hfit2 : Fits x.table2 m)
    (c : GMsg (Arr m)) (hc : c ∈ sel2) (hcmin : ∀ q ∈ sel2, c.endStep ≤ q.endStep)
    (hse : c.startStep ≤ c.endStep) (h0 : 0 ≤ c.endStep) (hend : c.endStep + a < hi)
    (hcur : ∀ t, InRange (firstEnd start a) c.startStep a t →
      (∃ q ∈ sel, q.endStep = t) ∧ (t - a = 0 ∨ ∃ q ∈ sel, q.endStep = t - a))
    (hcur2 : ∀ t, InRange (c.endStep + a) hi a t →
      (∃ q ∈ sel2, q.endStep = t) ∧ (t - a = 0 ∨ ∃ q ∈ sel2, q.endStep = t - a)) (hm : x.mask ≠ none)
    (o : NcOut) {fmt : ValueFormat} {scale offset : ℚ} {lo up : Option ℚ} (ho : NcMeans o fmt scale offset lo up)
    (req : Option Str) (hreq : unitAsked o.stepUnits req) :
    ∃ (d : Dataset k) (times : List Int) (n1 n2 : Nat), x.datasetTwo ne y o = .ok (some d) ∧
      Describes d o x.namePrefix ref fmt scale offset lo up ∧ TimesIn u req times d.time ∧
      times.length = n1 + n2 ∧ d.records.length = n1 + n2 ∧
      (∀ j : Nat, j < n1 ↔ firstEnd start a + j * a ≤ c.startStep) ∧
      (∀ j : Nat, j < n2 ↔ c.endStep + a + j * a ≤ hi) ∧
      (∀ (j : Nat) t, t = firstEnd start a + j * a → t ≤ c.startStep → times[j]? = some t ∧
        ∃ D rec, AccumulatedFrom mv f sel ao.forceZero x.unitTime a t D ∧ d.records[j]? = some rec ∧
          ∀ i V, V = finalCell x.height (cellOf x.table x.mvOut
              (Spec.cutField (x.conversion.isSome && x.cutOff) D) i) i →
            Shows d lo up (outside x.mask i = true ∨ V = x.mvOut) V (rec i)) ∧
      ∀ (j : Nat) t, t = c.endStep + a + j * a → t ≤ hi → times[n1 + j]? = some t ∧
        ∃ D rec, AccumulatedFrom mv f sel2 ao.forceZero x.unitTime a t D ∧ d.records[n1 + j]? = some rec ∧
          ∀ i V, V = finalCell x.height2 (cellOf x.table2 x.mvOut
              (Spec.cutField (x.conversion.isSome && x.cutOff) D) i) i →
            Shows d lo up (outside x.mask i = true ∨ V = x.mvOut) V (rec i) := by
  obtain ⟨files, n1, n2, g1, g2, g3, g4, g5, g6⟩ := two_file_accumulation_run ne x.bare y f mv hidx hidx2 hup ao hagg hty a
    ha hpos E hE hreg start hi hst hhi sel hsel hne sel2 hsel2 nj hnj hdiff nj2 hnj2 hdiff2 hmv
    (fun q h => by rw [href q h]; rfl) hdate2 hconv hfit hfit2 c hc hcmin hse h0 hend hcur hcur2
  obtain ⟨d, times, e0, e1, e2, e3, e4, e5, e6, e7⟩ := two_file_dataset ne x y f mv hidx hidx2 hup ao hagg a ha hpos E hE
    hreg start hi hst (Or.inl hty) hhi sel hsel hne sel2 hsel2 nj hnj hdiff nj2 hnj2 hdiff2 hmv ref href u hu hk hdate2 hconv c hc
    hcmin hse h0 hend hm o ho req hreq files g1 g2 g3 g4
  refine ⟨d, times, n1, n2, e0, e1, e2, e3, e4, g3, g4, ?_, ?_⟩
  · intro j t ht hle
    obtain ⟨D, hD, hf⟩ := g5 j t ht hle
    have hj : j < n1 := (g3 j).2 (by rw [← ht]; exact hle)
    have hjr : j < d.records.length := by omega
    refine ⟨by rw [ht]; exact e5 j hj, D, d.records[j], hD, List.getElem?_eq_getElem hjr, ?_⟩
    intro i V hV
    have := e7 j _ _ hf (List.getElem?_eq_getElem hjr) i
    dsimp only at this
    change Shows d lo up (outside x.mask i = true ∨ shown none .nan _ i = x.mvOut) (shown none .nan _ i) _ at this
    rw [shown_bare] at this
    rw [hV]
    exact this
  · intro j t ht hle
    obtain ⟨D, hD, hf⟩ := g6 j t ht hle
    have hj : j < n2 := (g4 j).2 (by rw [← ht]; exact hle)
    have hjr : n1 + j < d.records.length := by omega
    refine ⟨by rw [ht]; exact e6 j hj, D, d.records[n1 + j], hD, List.getElem?_eq_getElem hjr, ?_⟩
    intro i V hV
    have := e7 (n1 + j) _ _ hf (List.getElem?_eq_getElem hjr) i
    dsimp only at this
    change Shows d lo up (outside x.mask i = true ∨ shown none .nan _ i = x.mvOut) (shown none .nan _ i) _ at this
    rw [shown_bare] at this
    rw [hV]
    exact this

/-- **C164**, average (without half weights, from a start different from 0, of messages that are not accumulated). -/
theorem two_file_netcdf_average (ne : NumExpr) (x : FileIn n k) (y : SecondFile m) (f : Num → Num) (mv : ℚ)
    (hidx : x.indexable = true) (hidx2 : y.indexable = true)
    (hup : x.sel.shortName.map Char.toUpper ≠ x.sel.shortName) (ao : AggrOpts) (hagg : x.aggr = some ao)
    (hty : ao.type = "average") (hh : ao.halfweights = false) (a : Int) (ha : ao.step = a) (hpos : 0 < a)
    (hinst : ∀ q ∈ x.file, String.ofList q.stepType ≠ "accum")
    (E : Int) (hE : LastStep x.file x.sel E) (hreg : StepsDiffer x.file x.sel) (start hi : Int)
    (hst : start = x.tstart.getD 0) (hstart : start ≠ 0) (hhi : hi = windowEnd x.tend E)
    (sel : List (GMsg (Arr n))) (hsel : sel = taken x.file x.sel (max 0 (start - a)) hi)
    (sel2 : List (GMsg (Arr m))) (hsel2 : sel2 = taken y.file x.sel (max 0 (start - a)) hi)
    (nj : Int) (hnj : ∀ q ∈ sel, q.nj = nj) (hdiff : (sel.map GMsg.endStep).Nodup)
    (nj2 : Int) (hnj2 : ∀ q ∈ sel2, q.nj = nj2) (hdiff2 : (sel2.map GMsg.endStep).Nodup)
    (hmv : ∀ q ∈ sel, q.missingValue = .fin mv) (ref : Int × Nat) (href : ∀ q ∈ sel, reference q = some ref)
    (u : Str) (hu : ∀ q ∈ sel, q.get? "stepUnits".toList = some (.str u)) (hk : ∃ name, (u, name) ∈ gribUnits)
    (hdate2 : ∀ q ∈ sel2, (reference q).isSome = true) (hconv : Means ne x.conversion f)
    (hfit : Fits x.table n) (hfit2 : Fits x.table2 m)
    (c : GMsg (Arr m)) (hc : c ∈ sel2) (hcmin : ∀ q ∈ sel2, c.endStep ≤ q.endStep)
    (hse : c.startStep ≤ c.endStep) (h0 : 0 ≤ c.endStep) (hend : c.endStep + a < hi)
    (hex : ∃ q ∈ sel, c.startStep ≤ q.endStep) (hex2 : ∃ q ∈ sel2, hi ≤ q.endStep) (hm : x.mask ≠ none)
    (o : NcOut) {fmt : ValueFormat} {scale offset : ℚ} {lo up : Option ℚ} (ho : NcMeans o fmt scale offset lo up)
    (req : Option Str) (hreq : unitAsked o.stepUnits req) :
    ∃ (d : Dataset k) (times : List Int) (n1 n2 : Nat), x.datasetTwo ne y o = .ok (some d) ∧
      Describes d o x.namePrefix ref fmt scale offset lo up ∧ TimesIn u req times d.time ∧
      times.length = n1 + n2 ∧ d.records.length = n1 + n2 ∧
      (∀ j : Nat, j < n1 ↔ start + j * a ≤ c.startStep) ∧
      (∀ j : Nat, j < n2 ↔ c.endStep + a + j * a ≤ hi) ∧
      (∀ (j : Nat) t, t = start + j * a → t ≤ c.startStep → times[j]? = some t ∧
        ∃ D rec, MeanFrom mv f sel a t D ∧ d.records[j]? = some rec ∧
          ∀ i V, V = finalCell x.height (cellOf x.table x.mvOut
              (Spec.cutField (x.conversion.isSome && x.cutOff) D) i) i →
            Shows d lo up (outside x.mask i = true ∨ V = x.mvOut) V (rec i)) ∧
      ∀ (j : Nat) t, t = c.endStep + a + j * a → t ≤ hi → times[n1 + j]? = some t ∧
        ∃ D rec, MeanFrom mv f sel2 a t D ∧ d.records[n1 + j]? = some rec ∧
          ∀ i V, V = finalCell x.height2 (cellOf x.table2 x.mvOut
              (Spec.cutField (x.conversion.isSome && x.cutOff) D) i) i →
            Shows d lo up (outside x.mask i = true ∨ V = x.mvOut) V (rec i) := by
  obtain ⟨files, n1, n2, g1, g2, g3, g4, g5, g6⟩ := two_file_average_run ne x.bare y f mv hidx hidx2 hup ao hagg hty hh a
    ha hpos hinst E hE hreg start hi hst hstart hhi sel hsel sel2 hsel2 nj hnj hdiff nj2 hnj2 hdiff2 hmv
    (fun q h => by rw [href q h]; rfl) hdate2 hconv hfit hfit2 c hc hcmin hse h0 hend hex hex2
  have hfe : firstEnd start a = start := by
    unfold firstEnd
    rw [if_neg hstart]
  have hne : sel ≠ [] := by
    obtain ⟨q, hq, -⟩ := hex
    exact List.ne_nil_of_mem hq
  obtain ⟨d, times, e0, e1, e2, e3, e4, e5, e6, e7⟩ := two_file_dataset ne x y f mv hidx hidx2 hup ao hagg a ha hpos E hE
    hreg start hi hst (Or.inr ⟨hty, hstart⟩) hhi sel hsel hne sel2 hsel2 nj hnj hdiff nj2 hnj2 hdiff2 hmv ref href u hu hk hdate2 hconv c hc
    hcmin hse h0 hend hm o ho req hreq files g1 g2 (by rw [hfe]; exact g3) g4
  rw [hfe] at e5
  refine ⟨d, times, n1, n2, e0, e1, e2, e3, e4, g3, g4, ?_, ?_⟩
  · intro j t ht hle
    obtain ⟨D, hD, hf⟩ := g5 j t ht hle
    have hj : j < n1 := (g3 j).2 (by rw [← ht]; exact hle)
    have hjr : j < d.records.length := by omega
    refine ⟨by rw [ht]; exact e5 j hj, D, d.records[j], hD, List.getElem?_eq_getElem hjr, ?_⟩
    intro i V hV
    have := e7 j _ _ hf (List.getElem?_eq_getElem hjr) i
    dsimp only at this
    change Shows d lo up (outside x.mask i = true ∨ shown none .nan _ i = x.mvOut) (shown none .nan _ i) _ at this
    rw [shown_bare] at this
    rw [hV]
    exact this
  · intro j t ht hle
    obtain ⟨D, hD, hf⟩ := g6 j t ht hle
    have hj : j < n2 := (g4 j).2 (by rw [← ht]; exact hle)
    have hjr : n1 + j < d.records.length := by omega
    refine ⟨by rw [ht]; exact e6 j hj, D, d.records[n1 + j], hD, List.getElem?_eq_getElem hjr, ?_⟩
    intro i V hV
    have := e7 (n1 + j) _ _ hf (List.getElem?_eq_getElem hjr) i
    dsimp only at this
    change Shows d lo up (outside x.mask i = true ∨ shown none .nan _ i = x.mvOut) (shown none .nan _ i) _ at this
    rw [shown_bare] at this
    rw [hV]
    exact this

namespace Demo

/-- The file of C162 with netCDF output: two cells, the second outside the clone. -/
def changingNc (ty : String) : FileIn 2 2 :=
  { ncIn (some 6) none (some ⟨6, ty, false, false⟩) with
    file := coarse ++ fine
    conversion := some (some "x=x*2".toList)
    table2 := .nearest fun _ => 0 }

/-- C163: averages. -/
example : ∃ (d : Dataset 2) (times : List Int), (changingNc "average").dataset runNe ncOut = .ok (some d) ∧
    TimesIn "h".toList (some "D".toList) times d.time ∧ times[1]? = some 12 ∧ times[2]? = some 24 := by
  obtain ⟨d, times, n1, n2, h1, -, ht, -, -, h3, h4, h5, h6⟩ := change_netcdf_average runNe (changingNc "average")
    (fun a => a * .fin 2) (-9999)
    rfl (by decide +kernel) (by decide +kernel) _ rfl rfl rfl 6 rfl (by decide) (by decide +kernel) 30
    (changing_last "average") (changing_steps "average") 6 30 rfl (by decide) rfl _ _ _ _ (changing_taken "average")
    changing_change
    (by decide +kernel) (by decide +kernel) (by decide +kernel) (20240501, 12) (by decide +kernel) "h".toList
    (by decide +kernel) hours doubled
    (fun _ => Nat.le_succ 1) (fun _ => Nat.zero_le 2) (by decide) (by decide) (by decide) (by decide +kernel)
    (by decide +kernel) (by intro h; cases h) ncOut ncOut_means (some "D".toList) (.inr ⟨_, rfl, rfl⟩)
  have hn : n1 = 2 := by
    have a1 := (h3 1).2 (by decide)
    have a2 := mt (h3 2).1 (by decide)
    omega
  subst hn
  exact ⟨d, times, h1, ht, (h5 1 12 rfl (by decide)).1, (h6 0 24 rfl (by decide)).1⟩

example : ((changingNc "average").dataset runNe ncOut).toOption.map (fun d => d.map fun d =>
    (d.records.map (fun r => (r 0, r 1)), d.time.values)) =
    some (some ([(6, -32767), (14, -32767), (30, -32767), (42, -32767)], [1 / 4, 1 / 2, 1, 5 / 4])) := by decide +kernel

/-- C163: accumulation. -/
example : ∃ d : Dataset 2, (changingNc "accumulation").dataset runNe ncOut = .ok (some d) := by
  obtain ⟨d, times, n1, n2, h1, -⟩ := change_netcdf_accumulation runNe (changingNc "accumulation")
    (fun a => a * .fin 2) (-9999)
    rfl (by decide +kernel) (by decide +kernel) _ rfl rfl 6 rfl (by decide) 30
    (changing_last "accumulation") (changing_steps "accumulation") 6 30 rfl rfl _ _ _ _ (changing_taken "accumulation")
    changing_change
    (by decide +kernel) (by decide +kernel) (by decide +kernel) (20240501, 12) (by decide +kernel) "h".toList
    (by decide +kernel) hours doubled
    (fun _ => Nat.le_succ 1) (fun _ => Nat.zero_le 2) (by decide) (by decide) (by decide)
    (by
      rintro t ⟨j, rfl, hj⟩
      have hf : firstEnd 6 6 = 6 := rfl
      rw [hf] at hj ⊢
      have hj : 6 + (j : Int) * 6 ≤ 12 := hj
      have : j = 0 ∨ j = 1 := by omega
      rcases this with rfl | rfl
      · exact ⟨by decide +kernel, .inl (by decide)⟩
      · exact ⟨by decide +kernel, .inr (by decide +kernel)⟩)
    (by
      rintro t ⟨j, rfl, hj⟩
      have hc : (sixH 5 18 (-9999) fun _ => Num.fin 7 : GMsg (Arr 2)).endStep = 18 := rfl
      rw [hc] at hj ⊢
      have : j = 0 ∨ j = 1 := by omega
      rcases this with rfl | rfl
      · exact ⟨by decide +kernel, .inr (by decide +kernel)⟩
      · exact ⟨by decide +kernel, .inr (by decide +kernel)⟩)
    (by intro h; cases h) ncOut ncOut_means (some "D".toList) (.inr ⟨_, rfl, rfl⟩)
  exact ⟨d, h1⟩

/-- The second file: one point, steps 18 to 30. -/
def laterH : SecondFile 1 := ⟨[sixH 5 18 (-9999) fun _ => .fin 7, sixH 5 24 (-9999) fun _ => .fin 9,
  sixH 5 30 (-9999) fun _ => .fin 11], true⟩

/-- The two files, with an end. -/
def joinedNc (ty : String) : FileIn 2 2 :=
  { ncIn (some 6) (some 30) (some ⟨6, ty, false, false⟩) with
    file := coarse
    conversion := some (some "x=x*2".toList)
    table2 := .nearest fun _ => 0 }

theorem coarse_last : LastStep coarse (ncIn none none none).sel 12 := by
  refine ⟨⟨sixH 10 12 (-9999) fun i => if i = 0 then .fin 3 else .fin 4, ?_, by decide +kernel, rfl⟩, by decide +kernel⟩
  unfold coarse
  simp

theorem coarse_steps : StepsDiffer coarse (ncIn none none none).sel :=
  ⟨by decide +kernel, fun _ hq => absurd (congrArg List.length hq)
    (show ¬ (coarse.filter (named (ncIn none none none).sel)).length = 1 by decide +kernel)⟩

theorem laterH_first : (sixH 5 18 (-9999) fun _ => .fin 7 : GMsg (Arr 1)) ∈
    taken laterH.file (ncIn none none none).sel (max 0 (6 - 6)) 30 :=
  List.mem_filter.2 ⟨List.mem_cons_self, by decide +kernel⟩

/-- C164: averages. -/
example : ∃ (d : Dataset 2) (times : List Int), (joinedNc "average").datasetTwo runNe laterH ncOut = .ok (some d) ∧
    TimesIn "h".toList (some "D".toList) times d.time ∧ times[1]? = some 12 ∧ times[2]? = some 24 := by
  obtain ⟨d, times, n1, n2, h1, -, ht, -, -, h3, h4, h5, h6⟩ := two_file_netcdf_average runNe (joinedNc "average") laterH
    (fun a => a * .fin 2) (-9999)
    rfl rfl (by decide +kernel) _ rfl rfl rfl 6 rfl (by decide) (by decide +kernel) 12 coarse_last coarse_steps 6 30 rfl
    (by decide) rfl _ rfl _ rfl 10 (by decide +kernel) (by decide +kernel) 5 (by decide +kernel) (by decide +kernel)
    (by decide +kernel) (20240501, 12) (by decide +kernel) "h".toList
    (by decide +kernel) hours (by decide +kernel) doubled
    (fun _ => Nat.le_succ 1) (fun _ => Nat.zero_le 1) _ laterH_first (by decide +kernel) (by decide) (by decide) (by decide)
    (by decide +kernel) (by decide +kernel) (by intro h; cases h) ncOut ncOut_means (some "D".toList) (.inr ⟨_, rfl, rfl⟩)
  have hn : n1 = 2 := by
    have a1 := (h3 1).2 (by decide)
    have a2 := mt (h3 2).1 (by decide)
    omega
  subst hn
  exact ⟨d, times, h1, ht, (h5 1 12 rfl (by decide)).1, (h6 0 24 rfl (by decide)).1⟩

example : ((joinedNc "average").datasetTwo runNe laterH ncOut).toOption.map (fun d => d.map fun d =>
    (d.records.map (fun r => (r 0, r 1)), d.time.values)) =
    some (some ([(6, -32767), (14, -32767), (34, -32767), (42, -32767)], [1 / 4, 1 / 2, 1, 5 / 4])) := by decide +kernel

/-- C164: accumulation. -/
example : ∃ d : Dataset 2, (joinedNc "accumulation").datasetTwo runNe laterH ncOut = .ok (some d) := by
  obtain ⟨d, times, n1, n2, h1, -⟩ := two_file_netcdf_accumulation runNe (joinedNc "accumulation") laterH
    (fun a => a * .fin 2) (-9999)
    rfl rfl (by decide +kernel) _ rfl rfl 6 rfl (by decide) 12 coarse_last coarse_steps 6 30 rfl
    rfl _ rfl (fun h => absurd (congrArg List.length h) (by decide +kernel)) _ rfl 10 (by decide +kernel) (by decide +kernel) 5
    (by decide +kernel) (by decide +kernel)
    (by decide +kernel) (20240501, 12) (by decide +kernel) "h".toList
    (by decide +kernel) hours (by decide +kernel) doubled
    (fun _ => Nat.le_succ 1) (fun _ => Nat.zero_le 1) _ laterH_first (by decide +kernel) (by decide) (by decide) (by decide)
    (by
      rintro t ⟨j, rfl, hj⟩
      have hf : firstEnd 6 6 = 6 := rfl
      rw [hf] at hj ⊢
      have hj : 6 + (j : Int) * 6 ≤ 12 := hj
      have : j = 0 ∨ j = 1 := by omega
      rcases this with rfl | rfl
      · exact ⟨by decide +kernel, .inl (by decide)⟩
      · exact ⟨by decide +kernel, .inr (by decide +kernel)⟩)
    (by
      rintro t ⟨j, rfl, hj⟩
      change (18 : Int) + 6 + _ ≤ 30 at hj
      have : j = 0 ∨ j = 1 := by omega
      rcases this with rfl | rfl
      · exact ⟨by decide +kernel, .inr (by decide +kernel)⟩
      · exact ⟨by decide +kernel, .inr (by decide +kernel)⟩)
    (by intro h; cases h) ncOut ncOut_means (some "D".toList) (.inr ⟨_, rfl, rfl⟩)
  exact ⟨d, h1⟩

end Demo

end PyG2P
