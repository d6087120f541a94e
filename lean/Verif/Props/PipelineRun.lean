import Verif.Props.Pipeline
import Verif.Props.HalfWeights
import Verif.Props.AggregationMisc

/-! # C117–C120, C123 — runs on one grid, from the messages to the files -/

namespace PyG2P
open Spec TableApply Converter Aggregator
variable {n m k : Nat}

namespace Spec

/-- What the correction (if there is one) makes of value `x` in cell `c`: the formula where target height, value and
surface height differ from their missing values, else 9.969209968386869e36. -/
def finalCell (h : Option (Height k)) (x : Num) (c : Fin k) : Num :=
  match h with
  | none => x
  | some h =>
    if (h.dem.data c).neb h.demMv = true ∧ x.neb (.fin (9969209968386869 * 10 ^ 21)) = true ∧
        (h.gem.data c).neb h.gemMv = true then
      h.formula (h.dem.data c) x (h.gem.data c)
    else .fin (9969209968386869 * 10 ^ 21)

/-- The messages of a run after conversion. -/
def convertedMsgs (mv : ℚ) (f : Num → Num) (ms : Messages n) : Messages n :=
  ms.map fun p => (p.1, convertedField mv f p.2)

/-- Are negative values cut off? Only after a conversion (that may be `x=x`). -/
def cuts (r : RunIn n m k) : Bool := r.conversion.isSome && r.ctrl.cutOff

end Spec

/-! ## conversion -/

theorem convertedField_id (mv : ℚ) (v : Arr n) : convertedField mv id v = v := by
  unfold convertedField
  cases v with
  | mk d ma =>
    congr 1
    funext i
    dsimp only [id]
    by_cases h : d i = .fin mv
    · rw [if_pos h, h]
    · rw [if_neg h]

theorem convertedMsgs_id (mv : ℚ) (ms : Messages n) : convertedMsgs mv id ms = ms := by
  unfold convertedMsgs
  conv_rhs => rw [← List.map_id ms]
  refine List.map_congr_left fun p _ => ?_
  rw [convertedField_id]
  rfl

theorem convert_means {ne : NumExpr} {s : Str} {f : Num → Num} (h : Means ne (some (some s)) f) (cut : Bool) (mv : ℚ)
    (x : Arr n) : convert ne ((Converter.init (some s) cut).setMissingValue (.fin mv)) x =
      .ok (convertedField mv f x) := by
  rcases h with ⟨h, rfl⟩ | ⟨t, hl, hx, hf, hc⟩
  · rcases h with h | h
    · cases h
    · injection h with h
      injection h with h
      subst h
      rw [C17_identity, convertedField_id]
  · injection hc with hc
    injection hc with hc
    subst hc
    obtain ⟨r, hr, h1, h2, h3⟩ := C17_conversion ne t f cut mv x hl hx hf
    rw [hr]
    congr 1
    unfold convertedField
    cases r with
    | mk d ma =>
      dsimp only at h1 h2 h3
      rw [h3]
      congr 1
      funext i
      by_cases h : x.data i = .fin mv
      · rw [if_pos h, h1 i h]
      · rw [if_neg h, h2 i h]

theorem convertDict_means {ne : NumExpr} {s : Str} {f : Num → Num} (h : Means ne (some (some s)) f) (cut : Bool)
    (mv : ℚ) (d : Dict Step (Arr n)) :
    MsgSet.convertDict ne ((Converter.init (some s) cut).setMissingValue (.fin mv)) d = .ok (convertedMsgs mv f d) := by
  unfold MsgSet.convertDict convertedMsgs
  refine mapM_all_ok _ _ _ fun p _ => ?_
  rw [convert_means h]
  rfl

theorem applyConversion_means {ne : NumExpr} {s : Str} {f : Num → Num} (h : Means ne (some (some s)) f) (cut : Bool)
    (mv : ℚ) (ms : MsgSet n m) (hmv : ms.mv = .fin mv) :
    ms.applyConversion ne (Converter.init (some s) cut) =
      .ok { ms with first := convertedMsgs mv f ms.first, second := convertedMsgs mv f ms.second } := by
  unfold MsgSet.applyConversion
  dsimp only
  rw [hmv, convertDict_means h, convertDict_means h]
  rfl

/-- The controller's input with converted messages. -/
def convertedCtrl (mv : ℚ) (f : Num → Num) (c : CtrlIn n m) : CtrlIn n m :=
  { c with
    msgs :=
      { c.msgs with
        first := convertedMsgs mv f c.msgs.first
        second := convertedMsgs mv f c.msgs.second } }

/-! ## one grid -/

theorem cutField_eq (cut : Bool) (v : Arr n) :
    (Spec.cutField cut v) = if cut then Converter.cutOffField v else v := rfl

/-- The controller's maps of a run on one grid. -/
theorem run_single {c : CtrlIn n m} (hone : c.msgs.changeResolutionStep = none) :
    c.run = match c.firstPart with
      | .error e => .error e
      | .ok v1 => .ok (sortedBy (fun p => p.1.endStep)
          (v1.map fun p => (p.1, (Sum.inl (Spec.cutField c.cutOff p.2) : Field n m))), none) := by
  unfold CtrlIn.run
  cases h : c.firstPart with
  | error e => rfl
  | ok v1 =>
    dsimp only
    have h2 : c.secondPart v1 = .ok (v1.map fun p => (p.1, .inl p.2), none) := by
      unfold CtrlIn.secondPart
      rw [hone]
    rw [h2]
    dsimp only
    cases c.cutOff with
    | false => rfl
    | true =>
      rw [if_pos rfl, List.map_map]
      rfl

theorem fields_single (ne : NumExpr) (r : RunIn n m k) (f : Num → Num) (mv : ℚ) (hmv : r.ctrl.msgs.mv = .fin mv)
    (hconv : Means ne r.conversion f) (hone : r.ctrl.msgs.changeResolutionStep = none) :
    r.fields ne = match (convertedCtrl mv f r.ctrl).firstPart with
      | .error e => .error e
      | .ok v1 => .ok (sortedBy (fun p => p.1.endStep)
          (v1.map fun p => (p.1, (Sum.inl (Spec.cutField (cuts r) p.2) : Field n m))), none) := by
  unfold RunIn.fields cuts
  cases hc : r.conversion with
  | none =>
    rw [hc] at hconv
    have hf : f = id := by
      rcases hconv with ⟨-, h⟩ | ⟨t, -, -, -, h⟩
      · exact h
      · cases h
    subst hf
    unfold convertedCtrl
    rw [convertedMsgs_id, convertedMsgs_id, Option.isSome_none, Bool.false_and]
    dsimp only
    rw [run_single (c := { r.ctrl with cutOff := false }) hone]
    rfl
  | some s =>
    cases s with
    | none =>
      rw [hc] at hconv
      rcases hconv with ⟨h | h, -⟩ | ⟨t, -, -, -, h⟩
      · cases h
      · injection h with h; cases h
      · injection h with h; cases h
    | some s =>
      rw [hc] at hconv
      dsimp only
      rw [applyConversion_means hconv _ mv _ hmv]
      dsimp only
      rw [Option.isSome_some, Bool.true_and]
      exact run_single (c := convertedCtrl mv f r.ctrl) hone

theorem pcrWrite_shown (mask : Option (Fin k → Bool)) (mv : Num) (a : Arr k) (c : Fin k) (h : a.masked c = false) :
    pcrWrite mask mv a c = shown mask mv (a.data c) c := by
  unfold pcrWrite shown
  dsimp only
  rw [h, Bool.false_and, Bool.or_false]
  cases hd : a.data c with
  | nan => simp [Num.isNan]
  | fin q => simp [Num.isNan]

theorem corrected_cell (h : Option (Height k)) (d : Fin k → Num) :
    (∀ c, (RunIn.corrected h (Arr.plain d)).masked c = false) ∧
    ∀ c, (RunIn.corrected h (Arr.plain d)).data c = finalCell h (d c) c := by
  cases h with
  | none => exact ⟨fun c => rfl, fun c => rfl⟩
  | some h =>
    refine ⟨fun c => rfl, fun c => ?_⟩
    unfold RunIn.corrected Height.correct Corrector.correct Arr.maskedWhere finalCell
    dsimp only
    simp only [Bool.and_eq_true, and_assoc]
    rfl

theorem render_first (r : RunIn n m k) (v : Arr n) (hfit : Fits r.table n) :
    ∃ a : Arr k, r.render false (.inl v) = .ok a ∧ (∀ c, a.masked c = false) ∧
      ∀ c, a.data c = finalCell r.height (cellOf r.table r.mvOut v c) c := by
  unfold RunIn.render
  dsimp only
  rw [if_neg (by decide), if_neg (by decide), interpolate_eq _ _ _ hfit]
  exact ⟨_, rfl, (corrected_cell _ _).1, (corrected_cell _ _).2⟩

theorem gridLoop_none {α : Type} (l : List (Step × α)) :
    gridLoop none false l = l.map fun p => (p.1, p.2, false) := by
  induction l with
  | nil => rfl
  | cons p l ih =>
    obtain ⟨t, v⟩ := p
    rw [gridLoop, List.map_cons, show (false || isChange none t) = false from rfl, ih]

theorem sortedBy_endStep {α β : Type} (g : α → β) (l : List (Step × α)) :
    sortedBy (fun p => p.1.endStep) (l.map fun p => (p.1, g p.2)) =
      (sortedBy (fun p => p.1.endStep) l).map fun p => (p.1, g p.2) :=
  sortedBy_map (fun p : Step × α => (p.1, g p.2)) (fun p => p.1.endStep) (fun p => p.1.endStep) (fun _ => rfl) l

/-- The files of a run on one grid. -/
theorem pcraster_single (ne : NumExpr) (r : RunIn n m k) (f : Num → Num) (mv : ℚ) (hmv : r.ctrl.msgs.mv = .fin mv)
    (hconv : Means ne r.conversion f) (hone : r.ctrl.msgs.changeResolutionStep = none) (hfit : Fits r.table n) :
    r.pcraster ne = match (convertedCtrl mv f r.ctrl).firstPart with
      | .error e => .error e
      | .ok v1 => .ok (((sortedBy (fun p => p.1.endStep) v1).zipIdx 1).map fun q =>
          (pcrName r.namePrefix r.fmap r.ext q.2, fun c => shown r.mask r.mvClone
            (finalCell r.height (cellOf r.table r.mvOut (Spec.cutField (cuts r) q.1.2) c) c) c)) := by
  unfold RunIn.pcraster
  rw [fields_single ne r f mv hmv hconv hone]
  generalize CtrlIn.firstPart _ = o
  cases o with
  | error e => rfl
  | ok v1 =>
    dsimp only
    unfold writePcraster
    rw [gridLoop_none, sortedBy_endStep (fun a : Arr n => (Sum.inl (Spec.cutField (cuts r) a) : Field n m)), List.map_map, List.zipIdx_map, List.map_map, List.mapM_map]
    refine mapM_all_ok _ _ _ fun q _ => ?_
    obtain ⟨a, ha, hm, hd⟩ := render_first r (Spec.cutField (cuts r) q.1.2) hfit
    dsimp only [Function.comp, Prod.map]
    rw [ha]
    change Except.ok _ = _
    congr 2
    funext c
    rw [pcrWrite_shown _ _ _ _ (hm c), hd c]

/-! ## C117: without aggregation -/

/-- **C117.** A run on one grid without aggregation, with any conversion `x=t` that numexpr understands (or none), and
a table of the grid: it writes one file per message, in the order of the end steps, numbered from 1. Each cell is the
value the table gives for the converted field (negative values cut off if asked), corrected if there is a correction;
outside the clone, and where it is NaN, it is the missing value of the clone. -/
theorem plain_run (ne : NumExpr) (r : RunIn n m k) (f : Num → Num) (mv : ℚ) (hmv : r.ctrl.msgs.mv = .fin mv)
    (hconv : Means ne r.conversion f) (hone : r.ctrl.msgs.changeResolutionStep = none) (hfit : Fits r.table n)
    (hagg : r.ctrl.aggregate = false) :
    ∃ (ord : Messages n) (files : List (Str × (Fin k → Num))), ord.Perm r.ctrl.msgs.first ∧ ord.Pairwise (fun a b => a.1.endStep ≤ b.1.endStep) ∧
      r.pcraster ne = .ok files ∧ files.length = ord.length ∧
      ∀ (j : Nat) s v, ord[j]? = some (s, v) →
        files[j]? = some (pcrName r.namePrefix r.fmap r.ext (j + 1), fun c => shown r.mask r.mvClone
          (finalCell r.height (cellOf r.table r.mvOut (Spec.cutField (cuts r) (convertedField mv f v)) c) c) c) := by
  have hp := pcraster_single ne r f mv hmv hconv hone hfit
  have h1 : (convertedCtrl mv f r.ctrl).firstPart =
      .ok (convertedMsgs mv f r.ctrl.msgs.first) := by
    unfold CtrlIn.firstPart convertedCtrl
    dsimp only
    rw [if_neg (by rw [hagg]; decide)]
  rw [h1] at hp
  refine ⟨sortedBy (fun p => p.1.endStep) r.ctrl.msgs.first, _, sortedBy_perm _ _, sortedBy_pairwise _ _, hp, ?_, ?_⟩
  · unfold convertedMsgs
    rw [List.length_map, List.length_zipIdx, sortedBy_endStep (convertedField mv f),
      List.length_map]
  · intro j s v hj
    unfold convertedMsgs
    rw [sortedBy_endStep (convertedField mv f), List.getElem?_map, List.getElem?_zipIdx, List.getElem?_map, hj]
    simp only [Option.map_some, Nat.add_comm 1 j]
    rfl

/-! ## C118: accumulation -/

theorem fieldAt_converted (mv : ℚ) (f : Num → Num) (ms : Messages n) (t : Int) :
    fieldAt (convertedMsgs mv f ms) t = (fieldAt ms t).map (convertedField mv f) := by
  unfold fieldAt convertedMsgs
  rw [List.filter_map, List.getLast?_map, Option.map_map, Option.map_map]
  rfl

theorem avail_converted (mv : ℚ) (f : Num → Num) (ms : Messages n) (t : Int) :
    Avail (convertedMsgs mv f ms) t ↔ Avail ms t := by
  rw [avail_iff, avail_iff, fieldAt_converted, Option.isSome_map]

theorem rangeList_get {a b s : Int} (hs : 0 < s) (j : Nat) (h : a + j * s < b) :
    (rangeList a b s)[j]? = some (a + j * s) := by
  unfold rangeList
  rw [List.getElem?_map, List.getElem?_range]
  · rfl
  · have : (j : Int) < (b - a + s - 1) / s := by
      rw [Int.lt_iff_add_one_le, Int.le_ediv_iff_mul_le hs, Int.add_mul]
      omega
    omega

theorem rangeList_length_le {a b s : Int} (hs : 0 < s) (j : Nat) (h : j < (rangeList a b s).length) :
    a + j * s < b := by
  have hj : (rangeList a b s)[j]? = some (rangeList a b s)[j] := List.getElem?_eq_getElem h
  have hm := List.mem_of_getElem? hj
  have he : (rangeList a b s)[j] = a + j * s := by
    simp only [rangeList, List.getElem_map, List.getElem_range]
  rw [he] at hm
  obtain ⟨_, _, h⟩ := (mem_rangeList hs).1 hm
  exact h


theorem firstPart_aggregated {c : CtrlIn n m} {a : Int} (hagg : c.aggregate = true) (ha : c.aggrStep = some a)
    (hone : c.msgs.changeResolutionStep = none) : c.firstPart = (c.aggregator a).doManipulation c.msgs.first := by
  unfold CtrlIn.firstPart
  rw [if_pos hagg, ha, hone]

/-- Files of a run whose manipulated maps are listed in time order. -/
theorem files_of {ne : NumExpr} {r : RunIn n m k} {f : Num → Num} {mv : ℚ} (hmv : r.ctrl.msgs.mv = .fin mv)
    (hconv : Means ne r.conversion f) (hone : r.ctrl.msgs.changeResolutionStep = none) (hfit : Fits r.table n)
    {l : List Int} {key : Int → Step} {V : Int → Arr n}
    (h1 : (convertedCtrl mv f r.ctrl).firstPart = .ok (l.map fun t => (key t, V t)))
    (hord : (l.map key).Pairwise fun a b => a.endStep < b.endStep) :
    ∃ files, r.pcraster ne = .ok files ∧ files.length = l.length ∧ ∀ (j : Nat) t, l[j]? = some t →
      files[j]? = some (pcrName r.namePrefix r.fmap r.ext (j + 1), fun c => shown r.mask r.mvClone
        (finalCell r.height (cellOf r.table r.mvOut (Spec.cutField (cuts r) (V t)) c) c) c) := by
  have hp := pcraster_single ne r f mv hmv hconv hone hfit
  rw [h1] at hp
  dsimp only at hp
  rw [sortedBy_of_sorted _ (by
    rw [List.pairwise_map] at hord ⊢
    exact hord.imp (fun h => Int.le_of_lt h))] at hp
  refine ⟨_, hp, by rw [List.length_map, List.length_zipIdx, List.length_map], fun j t hj => ?_⟩
  rw [List.getElem?_map, List.getElem?_zipIdx, List.getElem?_map, hj]
  simp only [Option.map_some, Nat.add_comm 1 j]
  rfl

/-- If step 0 is missing and all ends are available, the interval from 0 is the first one. -/
theorem zero_first {first end_ a : Int} (hs : 0 < a) {ms : Messages n} (h0 : ¬ Avail ms 0)
    (hcur : ∀ t, InRange first end_ a t → Avail ms t ∧ (t - a = 0 ∨ Avail ms (t - a)))
    (ht : InRange first end_ a a) : (rangeList first (end_ + 1) a).head? = some a := by
  obtain ⟨j, hj, hle⟩ := ht
  cases j with
  | zero =>
    have : first = a := by simpa using hj.symm
    subst this
    rw [rangeList_cons hs (by omega)]
    rfl
  | succ j =>
    exfalso
    have h1 : InRange first end_ a 0 := ⟨j, by push_cast at hj; linarith, by omega⟩
    exact h0 (hcur 0 h1).1

theorem accOut_masked (ag : Aggregator) (vc vp : Arr n) (i : Fin n) : (accOut ag vc vp).masked i = vp.masked i := by
  unfold accOut Arr.masked Arr.maskedWhere Arr.getMasks Arr.intoZeros Arr.getMasks
  cases vp.mask <;> rfl

/-- **C118.** An accumulation run on one grid with steps of `a` hours, where every end and start of the requested
intervals is available (a missing step 0 counts as zero): it writes one file per interval, the file number `j + 1` being
that of the interval that ends at `start + j·a`; its cells are what the table makes of
`(converted value at the end − converted value at the start) · unitTime / a`, negative values cut off if asked, then
corrected; outside the clone and where it is NaN, the missing value of the clone. (Masked are the points masked at the
start of the interval only, see C07.) -/
theorem accumulation_run (ne : NumExpr) (r : RunIn n m k) (f : Num → Num) (mv : ℚ) (hmv : r.ctrl.msgs.mv = .fin mv)
    (hconv : Means ne r.conversion f) (hone : r.ctrl.msgs.changeResolutionStep = none) (hfit : Fits r.table n)
    (hagg : r.ctrl.aggregate = true) (a : Int) (ha : r.ctrl.aggrStep = some a) (hpos : 0 < a)
    (htype : r.ctrl.aggrType = "accumulation") (hne : r.ctrl.msgs.first ≠ [])
    (hcur : ∀ t, InRange (firstEnd r.ctrl.start a) r.ctrl.end_ a t →
      Avail r.ctrl.msgs.first t ∧ (t - a = 0 ∨ Avail r.ctrl.msgs.first (t - a))) :
    ∃ files, r.pcraster ne = .ok files ∧
      (∀ j : Nat, j < files.length ↔ firstEnd r.ctrl.start a + j * a ≤ r.ctrl.end_) ∧
      ∀ (j : Nat) t, t = firstEnd r.ctrl.start a + j * a → t ≤ r.ctrl.end_ →
        ∃ vc vp D : Arr n, fieldAt r.ctrl.msgs.first t = some vc ∧
          (if t = a ∧ (r.ctrl.forceZero = true ∨ ¬ Avail r.ctrl.msgs.first 0) then
            (∀ i, vp.data i = 0 ∧ vp.masked i = false)
           else ∃ w, fieldAt r.ctrl.msgs.first (t - a) = some w ∧ vp = convertedField mv f w) ∧
          (∀ i, D.data i = ((convertedField mv f vc).data i - vp.data i) * Num.ofInt r.ctrl.unitTime / Num.ofInt a ∧
            D.masked i = vp.masked i) ∧
          files[j]? = some (pcrName r.namePrefix r.fmap r.ext (j + 1), fun c => shown r.mask r.mvClone
            (finalCell r.height (cellOf r.table r.mvOut (Spec.cutField (cuts r) D) c) c) c) := by
  set ag := (convertedCtrl mv f r.ctrl).aggregator a with hag
  set ms := convertedMsgs mv f r.ctrl.msgs.first with hms
  have hf1 : (convertedCtrl mv f r.ctrl).firstPart = ag.accumulation ms := by
    rw [firstPart_aggregated (c := convertedCtrl mv f r.ctrl) hagg ha hone]
    exact doManipulation_acc ag ms htype
  have hne' : ms ≠ [] := by
    intro h
    rw [hms] at h
    exact hne (List.map_eq_nil_iff.1 h)
  have hst : ag.accStart = firstEnd r.ctrl.start a := rfl
  have hcur' : ∀ t ∈ rangeList ag.accStart (ag.end_ + 1) ag.aggrStep,
      Avail ms t ∧ (t - ag.aggrStep = 0 ∨ Avail ms (t - ag.aggrStep)) := by
    intro t ht
    obtain ⟨h1, h2⟩ := hcur t ((mem_range_iff (ag := ag) hpos).1 ht)
    exact ⟨(avail_converted _ _ _ _).2 h1, h2.imp id (avail_converted _ _ _ _).2⟩
  obtain ⟨out, hout⟩ := accumulation_total ag ms hpos hne' (fun t ht => (hcur' t ht).1) (fun t ht => (hcur' t ht).2)
  obtain ⟨first, V, -, hV, ho, -, hz⟩ := accumulation_ok ag ms hpos out hout
  obtain ⟨files, hfiles, hlen, hget⟩ := files_of (r := r) hmv hconv hone hfit (hf1.trans (hout.trans (congrArg _ ho)))
    (by
      rw [List.pairwise_map]
      exact rangeList_pairwise hpos)
  refine ⟨files, hfiles, ?_, ?_⟩
  · intro j
    rw [hlen]
    constructor
    · intro h
      have := rangeList_length_le hpos j h
      rw [hst] at this
      change firstEnd r.ctrl.start a + j * a < r.ctrl.end_ + 1 at this
      omega
    · intro h
      have := rangeList_get (a := ag.accStart) (b := ag.end_ + 1) (s := ag.aggrStep) hpos j (by
        change firstEnd r.ctrl.start a + j * a < r.ctrl.end_ + 1
        omega)
      exact (List.getElem?_eq_some_iff.1 this).1
  · intro j t ht hle
    have hr : InRange (firstEnd ag.start ag.aggrStep) ag.end_ ag.aggrStep t := ⟨j, ht, hle⟩
    have hj : (rangeList ag.accStart (ag.end_ + 1) ag.aggrStep)[j]? = some t := by
      rw [ht]
      exact rangeList_get hpos j (by
        change firstEnd r.ctrl.start a + j * a < r.ctrl.end_ + 1
        omega)
    have hfile := hget j t hj
    obtain ⟨hav, hpv⟩ := hcur t ⟨j, ht, hle⟩
    obtain ⟨vc, hvc⟩ := Option.isSome_iff_exists.1 ((avail_iff _ _).1 hav)
    have hVt : V t = convertedField mv f vc := by
      apply hV t
      rw [hms, fieldAt_converted, hvc]
      rfl
    refine ⟨vc, _, _, hvc, ?_, fun i => ⟨?_, accOut_masked ag _ _ i⟩, hfile⟩
    · by_cases h0 : t = a ∧ (r.ctrl.forceZero = true ∨ ¬ Avail r.ctrl.msgs.first 0)
      · rw [if_pos h0]
        have ht0 : t - ag.aggrStep = 0 := by
          have : t = ag.aggrStep := h0.1
          omega
        by_cases hfz : ag.forceZero = true
        · rw [if_pos ⟨ht0, hfz⟩]
          exact fun i => ⟨rfl, rfl⟩
        · rw [if_neg (fun h => hfz h.2)]
          have hno : ¬ Avail ms 0 := by
            rw [hms, avail_converted]
            rcases h0.2 with h | h
            · exact absurd h hfz
            · exact h
          have hhd := zero_first (first := ag.accStart) (end_ := ag.end_) hpos hno
            (fun u hu => hcur' u ((mem_range_iff hpos).2 hu)) (by
              have h2 : InRange ag.accStart ag.end_ a t := hr
              rw [h0.1] at h2
              exact h2)
          rw [ht0, (hz _ hhd).2 (by omega) hno]
          exact fun i => ⟨rfl, rfl⟩
      · rw [if_neg h0]
        have hnz : ¬ (t - ag.aggrStep = 0 ∧ ag.forceZero = true) := by
          rintro ⟨h1, h2⟩
          refine h0 ⟨?_, Or.inl h2⟩
          have : ag.aggrStep = a := rfl
          omega
        rw [if_neg hnz]
        have hav' : Avail r.ctrl.msgs.first (t - a) := by
          rcases hpv with h | h
          · by_contra hno
            rw [h] at hno
            exact h0 ⟨by omega, Or.inr hno⟩
          · exact h
        obtain ⟨w, hw⟩ := Option.isSome_iff_exists.1 ((avail_iff _ _).1 hav')
        refine ⟨w, hw, hV _ _ ?_⟩
        change fieldAt ms (t - a) = _
        rw [hms, fieldAt_converted, hw]
        rfl
    · rw [accOut_data, hVt]
      rfl

/-! ## C119: averages -/

theorem isNext_converted (mv : ℚ) (f : Num → Num) (ms : Messages n) (t u : Int) :
    IsNext (convertedMsgs mv f ms) t u ↔ IsNext ms t u := by
  unfold IsNext
  simp only [avail_converted]

/-- **C119.** An average run (without half weights) on one grid with steps of `a` hours, a start different from 0, a
step type other than `accum` and data that reach the end: it writes one file per interval, file number `j + 1` for the
interval that ends at `start + j·a`; its cells are what the table makes of the mean over the hours of the interval of
the converted field valid at the hour (the message of the hour, else the next one), without any mask. -/
theorem average_run (ne : NumExpr) (r : RunIn n m k) (f : Num → Num) (mv : ℚ) (hmv : r.ctrl.msgs.mv = .fin mv)
    (hconv : Means ne r.conversion f) (hone : r.ctrl.msgs.changeResolutionStep = none) (hfit : Fits r.table n)
    (hagg : r.ctrl.aggregate = true) (a : Int) (ha : r.ctrl.aggrStep = some a) (hpos : 0 < a)
    (htype : r.ctrl.aggrType = "average") (hst : r.ctrl.stepType ≠ "accum") (hh : r.ctrl.halfweights = false)
    (h0 : r.ctrl.start ≠ 0) (hex : ∃ u, Avail r.ctrl.msgs.first u ∧ r.ctrl.end_ ≤ u) :
    ∃ files, r.pcraster ne = .ok files ∧
      (∀ j : Nat, j < files.length ↔ r.ctrl.start + j * a ≤ r.ctrl.end_) ∧
      ∀ (j : Nat) t, t = r.ctrl.start + j * a → t ≤ r.ctrl.end_ →
        ∃ (F : Int → Arr n) (D : Arr n), (∀ h, t - a < h → h ≤ t → ValidAt r.ctrl.msgs.first h (F h)) ∧
          (∀ i, D.data i = ((List.range a.toNat).map fun (x : Nat) =>
              (convertedField mv f (F (t - a + 1 + (x : Int)))).data i).sum / Num.ofInt a ∧
            D.masked i = false) ∧
          files[j]? = some (pcrName r.namePrefix r.fmap r.ext (j + 1), fun c => shown r.mask r.mvClone
            (finalCell r.height (cellOf r.table r.mvOut (Spec.cutField (cuts r) D) c) c) c) := by
  set ag := (convertedCtrl mv f r.ctrl).aggregator a with hag
  set ms := convertedMsgs mv f r.ctrl.msgs.first with hms
  have hf1 : (convertedCtrl mv f r.ctrl).firstPart = ag.doManipulation ms :=
    firstPart_aggregated (c := convertedCtrl mv f r.ctrl) hagg ha hone
  obtain ⟨u, hu, hue⟩ := hex
  obtain ⟨out, hout⟩ := C14_average_succeeds ag ms htype hpos rfl hst hh h0
    ⟨u, (avail_converted _ _ _ _).2 hu, hue⟩
  have hout' := hout
  rw [doManipulation_avg ag ms htype] at hout'
  obtain ⟨-, first, V, -, hV, ho⟩ := average_ok ag ms hpos out hout'
  have hb : ag.avgBounds = (r.ctrl.start - a, r.ctrl.end_ - a + 1) := by
    unfold avgBounds
    exact if_neg (by rintro (h | h); exact h0 h; cases h)
  rw [hb] at hV ho
  dsimp only at hV ho
  obtain ⟨files, hfiles, hlen, hget⟩ := files_of (r := r) hmv hconv hone hfit (hf1.trans (hout.trans (congrArg _ ho)))
    (by
      rw [List.pairwise_map]
      refine (rangeList_pairwise hpos).imp ?_
      intro x y hxy
      change x + a < y + a
      omega)
  refine ⟨files, hfiles, ?_, ?_⟩
  · intro j
    rw [hlen]
    constructor
    · intro h
      have := rangeList_length_le hpos j h
      change r.ctrl.start - a + j * a < _ at this
      omega
    · intro h
      have := rangeList_get (a := r.ctrl.start - a) (b := r.ctrl.end_ - a + 1) (s := a) hpos j (by omega)
      exact (List.getElem?_eq_some_iff.1 this).1
  · intro j t ht hle
    have hj : (rangeList (r.ctrl.start - a) (r.ctrl.end_ - a + 1) a)[j]? = some (t - a) := by
      rw [rangeList_get hpos j (by omega)]
      congr 1
      omega
    have hfile := hget j (t - a) hj
    obtain ⟨F, hF, hVF⟩ := (avgVal_plain ag hh hpos ms (t - a) (V (t - a))).1 (hV _ (List.mem_of_getElem? hj))
    have hG : ∀ h, t - a < h → h ≤ t → ∃ w, ValidAt r.ctrl.msgs.first h w ∧ F h = convertedField mv f w := by
      intro h h1 h2
      obtain ⟨x, hx, hx'⟩ := hF h h1 (by change h ≤ t - a + a; omega)
      rw [hms, fieldAt_converted] at hx'
      rw [hms, isNext_converted] at hx
      cases hw : fieldAt r.ctrl.msgs.first x with
      | none => rw [hw] at hx'; cases hx'
      | some w =>
        rw [hw] at hx'
        injection hx' with hx'
        exact ⟨w, ⟨x, hx, hw⟩, hx'.symm⟩
    choose! G hG1 hG2 using hG
    refine ⟨G, V (t - a), hG1, fun i => ⟨?_, ?_⟩, hfile⟩
    · rw [hVF]
      change hourSum F a (t - a) i / _ = _
      unfold hourSum
      congr 2
      refine List.map_congr_left fun x hx => ?_
      have hx := List.mem_range.1 hx
      rw [hG2 _ (by omega) (by omega)]
    · rw [hVF]
      rfl

/-! ## C120: conservation -/

theorem row_finite {row : List (Fin n × ℚ)} {D : Fin n → Num} (h : ∀ p ∈ row, ∃ q : ℚ, D p.1 = .fin q) :
    (row.map fun p => Num.fin p.2 * D p.1).sum = .fin ((row.map fun p => p.2 * toRat (D p.1)).sum) := by
  rw [← sum_fin_map]
  congr 1
  refine List.map_congr_left fun p hp => ?_
  obtain ⟨q, hq⟩ := h p hp
  rw [hq, Num.fin_mul]
  rfl

theorem sum_swap {α β : Type} (l : List α) (row : List β) (w : β → ℚ) (d : α → β → ℚ) :
    (l.map fun x => (row.map fun p => w p * d x p).sum).sum = (row.map fun p => w p * (l.map fun x => d x p).sum).sum := by
  induction l with
  | nil => simp
  | cons x l ih =>
    rw [List.map_cons, List.sum_cons, ih, ← List.sum_map_add]
    congr 1
    refine List.map_congr_left fun p _ => ?_
    rw [List.map_cons, List.sum_cons, mul_add]

theorem unmasked_lin {ms : Messages n} (hun : ∀ p ∈ ms, ∀ i, p.2.masked i = false) {x w : Int} {a : Arr n}
    (h : LinAt ms x w a) (i : Fin n) : a.masked i = false := by
  obtain ⟨o, nx, vO, vN, -, -, ho, hn, hO, hN, rfl⟩ := h
  obtain ⟨p, hp, rfl, -⟩ := fieldAt_mem hO
  obtain ⟨p', hp', rfl, -⟩ := fieldAt_mem hN
  have h1 := hun p hp i
  have h2 := hun p' hp' i
  unfold Arr.masked at h1 h2 ⊢
  unfold linInterp Arr.maskedWhere Arr.getMasks Arr.getMasks Arr.getMasks
  cases hm : p.2.mask with
  | none =>
    cases hm' : p'.2.mask with
    | none => rfl
    | some m' =>
      rw [hm'] at h2
      exact h2
  | some m =>
    rw [hm] at h1
    cases hm' : p'.2.mask with
    | none => exact h1
    | some m' =>
      rw [hm'] at h2
      dsimp only at h1 h2 ⊢
      simp only [Option.getD_some, h1, h2, Bool.or_self]

/-- Accumulated maps of messages without masked cells have none. -/
theorem acc_unmasked (ag : Aggregator) (ms : Messages n) (out : Dict Step (Arr n))
    (htype : ag.aggrType = "accumulation") (hs : 0 < ag.aggrStep) (hstart : 0 ≤ ag.start)
    (hrun : ag.doManipulation ms = .ok out) (hun : ∀ p ∈ ms, ∀ i, p.2.masked i = false)
    (hbase : (firstEnd ag.start ag.aggrStep - ag.aggrStep = 0) ∨ Avail ms (firstEnd ag.start ag.aggrStep - ag.aggrStep))
    (hlow : ∃ u, Avail ms u ∧ u ≤ firstEnd ag.start ag.aggrStep) :
    ∀ p ∈ out, ∀ i, p.2.masked i = false := by
  rw [doManipulation_acc ag ms htype] at hrun
  obtain ⟨f', V, hf', hV, ho, hgap, hz⟩ := accumulation_ok ag ms hs out hrun
  rw [accStart_eq] at *
  set s := firstEnd ag.start ag.aggrStep with hsdef
  have hsp : 0 < s := by
    rw [hsdef]; unfold firstEnd; split <;> omega
  have hav : ∀ t, Avail ms t → ∀ i, (V t).masked i = false := by
    intro t ha i
    obtain ⟨a, hfa⟩ := Option.isSome_iff_exists.1 ((avail_iff _ _).1 ha)
    rw [hV t a hfa]
    obtain ⟨p, hp, rfl, -⟩ := fieldAt_mem hfa
    exact hun p hp i
  intro p hp i
  rw [ho] at hp
  obtain ⟨t, ht, rfl⟩ := List.mem_map.1 hp
  dsimp only
  rw [accOut_masked]
  by_cases hc : t - ag.aggrStep = 0 ∧ ag.forceZero = true
  · rw [if_pos hc]; rfl
  rw [if_neg hc]
  obtain ⟨j, hj, hlt⟩ := (mem_rangeList hs).1 ht
  by_cases hts : t = s
  · rw [hts]
    by_cases h0 : s - ag.aggrStep = 0
    · by_cases ha : Avail ms 0
      · rw [h0]; exact hav 0 ha i
      · have hhead : (rangeList s (ag.end_ + 1) ag.aggrStep).head? = some s := by
          rw [rangeList_cons hs (by omega)]; rfl
        rw [h0, (hz s hhead).2 h0 ha]
        rfl
    · rcases hbase with h | h
      · exact absurd h h0
      · exact hav _ h i
  · have hj1 : 1 ≤ j := by
      rcases Nat.eq_zero_or_pos j with h | h
      · subst h; simp at hj; exact absurd hj hts
      · exact h
    have hin : t - ag.aggrStep ∈ rangeList s (ag.end_ + 1) ag.aggrStep := by
      refine (mem_rangeList hs).2 ⟨j - 1, ?_, by omega⟩
      push_cast [hj1]; linarith
    by_cases ha : Avail ms (t - ag.aggrStep)
    · exact hav _ ha i
    · refine unmasked_lin hun (hgap _ hin ha ?_) i
      obtain ⟨u, hu, hus⟩ := hlow
      refine ⟨u, hu, ?_⟩
      obtain ⟨j', hj', -⟩ := (mem_rangeList hs).1 hin
      have : 0 ≤ (j' : Int) * ag.aggrStep := Int.mul_nonneg (by omega) (by omega)
      have hne : u ≠ t - ag.aggrStep := by rintro rfl; exact ha hu
      omega

/-- **C120.** Conservation in the files: in an accumulation run on one grid (gaps filled or not) without cut-off and
correction, for a cell inside the clone that the table makes as a weighted sum of points (`row`) with finite data in
unmasked messages, the values of the cell over all files add up, times the step, to the weighted sum of (value at the
last end − value at the first start) times the unit time. -/
theorem conserved_run (ne : NumExpr) (r : RunIn n m k) (f : Num → Num) (mv : ℚ) (hmv : r.ctrl.msgs.mv = .fin mv)
    (hconv : Means ne r.conversion f) (hone : r.ctrl.msgs.changeResolutionStep = none) (hfit : Fits r.table n)
    (hagg : r.ctrl.aggregate = true) (a : Int) (ha : r.ctrl.aggrStep = some a) (hpos : 0 < a)
    (htype : r.ctrl.aggrType = "accumulation") (hstart : 0 ≤ r.ctrl.start) (hcut : cuts r = false)
    (hcorr : r.height = none) (files : List (Str × (Fin k → Num))) (hrun : r.pcraster ne = .ok files)
    (ms : Messages n) (hms : ms = convertedMsgs mv f r.ctrl.msgs.first) (s e : Int)
    (hs : s = firstEnd r.ctrl.start a) (he : e = lastEnd s r.ctrl.end_ a) (hle : s ≤ r.ctrl.end_)
    (hun : ∀ p ∈ r.ctrl.msgs.first, ∀ i, p.2.masked i = false) (hlow : ∃ u, Avail ms u ∧ u ≤ s)
    (c : Fin k) (hin : outside r.mask c = false) (row : List (Fin n × ℚ)) (hne : row ≠ [])
    (hrow : ∀ v : Arr n, (∀ i, v.masked i = false) →
      cellOf r.table r.mvOut v c = (row.map fun p => .fin p.2 * v.data p.1).sum)
    (qa qb : Fin n → ℚ) (hfin : ∀ p ∈ row, FiniteAt ms p.1)
    (hbase : ∀ p ∈ row, BaseValue ms r.ctrl.forceZero (s - a) p.1 (qa p.1))
    (hlast : ∃ vb, fieldAt ms e = some vb ∧ ∀ p ∈ row, vb.data p.1 = .fin (qb p.1)) :
    (∀ file ∈ files, ∃ q : ℚ, file.2 c = .fin q) ∧
    (files.map fun file => toRat (file.2 c)).sum * a =
      (row.map fun p => p.2 * (qb p.1 - qa p.1)).sum * r.ctrl.unitTime := by
  set ag := (convertedCtrl mv f r.ctrl).aggregator a with hag
  have hf1 : (convertedCtrl mv f r.ctrl).firstPart = ag.doManipulation ms := by
    rw [hms]
    exact firstPart_aggregated (c := convertedCtrl mv f r.ctrl) hagg ha hone
  have hp := pcraster_single ne r f mv hmv hconv hone hfit
  rw [hf1, hrun] at hp
  cases hout : ag.doManipulation ms with
  | error e => rw [hout] at hp; cases hp
  | ok out =>
  rw [hout] at hp
  dsimp only at hp
  have hp := Except.ok.inj hp
  have hun' : ∀ p ∈ ms, ∀ i, p.2.masked i = false := by
    intro p hp i
    rw [hms] at hp
    obtain ⟨q, hq, rfl⟩ := List.mem_map.1 hp
    exact hun q hq i
  obtain ⟨vb, hvb, hqb⟩ := hlast
  have hbase' : firstEnd ag.start ag.aggrStep - ag.aggrStep = 0 ∨
      Avail ms (firstEnd ag.start ag.aggrStep - ag.aggrStep) := by
    obtain ⟨p, hp⟩ := List.exists_mem_of_ne_nil row hne
    have := hbase p hp
    rw [hs] at this
    unfold BaseValue at this
    by_cases h : firstEnd r.ctrl.start a - a = 0 ∧ (r.ctrl.forceZero = true ∨ ¬ Avail ms 0)
    · exact Or.inl h.1
    · rw [if_neg h] at this
      obtain ⟨v, hv, -⟩ := this
      exact Or.inr ((avail_iff _ _).2 (by rw [show firstEnd ag.start ag.aggrStep - ag.aggrStep =
        firstEnd r.ctrl.start a - a from rfl, hv]; rfl))
  have hum := acc_unmasked ag ms out htype hpos hstart hout hun' hbase' (by rw [hs] at hlow; exact hlow)
  have hC03 : ∀ p ∈ row, (∀ x ∈ out, ∃ q : ℚ, x.2.data p.1 = .fin q) ∧
      (out.map fun x => toRat (x.2.data p.1)).sum * a = (qb p.1 - qa p.1) * r.ctrl.unitTime := by
    intro p hp
    exact C03_accumulation_conserves ag ms out htype hpos hstart hout (by rw [hs] at hle; exact hle) p.1 (hfin p hp)
      (qa p.1) (qb p.1) (by have := hbase p hp; rw [hs] at this; exact this) (by rw [hs] at hlow; exact hlow) vb
      (by rw [← hvb, he, hs]; rfl) (hqb p hp)
  have hcell : ∀ x ∈ out, shown r.mask r.mvClone (finalCell r.height (cellOf r.table r.mvOut
      (Spec.cutField (cuts r) x.2) c) c) c = .fin ((row.map fun p => p.2 * toRat (x.2.data p.1)).sum) := by
    intro x hx
    rw [hcut, hcorr]
    change shown r.mask r.mvClone (cellOf r.table r.mvOut x.2 c) c = _
    rw [hrow x.2 (hum x hx), row_finite (D := x.2.data) (fun p hp => (hC03 p hp).1 x hx)]
    unfold shown
    rw [if_neg]
    rintro (h | h)
    · rw [hin] at h; cases h
    · cases h
  have hperm : (sortedBy (fun p => p.1.endStep) out).Perm out := sortedBy_perm _ _
  constructor
  · intro file hfile
    rw [hp] at hfile
    obtain ⟨q, hq, rfl⟩ := List.mem_map.1 hfile
    have hq' : q.1 ∈ out := hperm.mem_iff.1 (List.fst_mem_of_mem_zipIdx hq)
    exact ⟨_, hcell q.1 hq'⟩
  · have hsum : (files.map fun file => toRat (file.2 c)).sum =
        (out.map fun x => (row.map fun p => p.2 * toRat (x.2.data p.1)).sum).sum := by
      rw [hp, List.map_map]
      have h1 : ∀ l : List (Step × Arr n), (∀ x ∈ l, x ∈ out) → ∀ i : Nat, ((l.zipIdx i).map
          ((fun file : Str × (Fin k → Num) => toRat (file.2 c)) ∘ fun q : (Step × Arr n) × Nat =>
            (pcrName r.namePrefix r.fmap r.ext q.2, fun c => shown r.mask r.mvClone (finalCell r.height
              (cellOf r.table r.mvOut (Spec.cutField (cuts r) q.1.2) c) c) c))).sum =
          (l.map fun x => (row.map fun p => p.2 * toRat (x.2.data p.1)).sum).sum := by
        intro l
        induction l with
        | nil => intro _ i; rfl
        | cons x l ih =>
          intro hl i
          rw [List.zipIdx_cons, List.map_cons, List.sum_cons, ih (fun y hy => hl y (by simp [hy])), List.map_cons,
            List.sum_cons]
          congr 1
          change toRat (shown _ _ _ c) = _
          rw [hcell x (hl x (by simp))]
          rfl
      rw [h1 _ (fun x hx => hperm.mem_iff.1 hx)]
      exact (hperm.map _).sum_eq
    rw [hsum, sum_swap out row (fun p => p.2) (fun x p => toRat (x.2.data p.1)), ← List.sum_map_mul_right,
      ← List.sum_map_mul_right]
    congr 1
    refine List.map_congr_left fun p hp => ?_
    rw [mul_assoc, (hC03 p hp).2, mul_assoc]

/-! ## an example -/

namespace Demo

/-- two messages of two points, accumulated. -/
def runMsgs : MsgSet 2 1 :=
  ⟨[(⟨0, 12, 640, 6, 0⟩, ⟨fun i => .fin (if i = 0 then 5 else 7), none⟩),
    (⟨0, 6, 640, 6, 0⟩, ⟨fun i => .fin (if i = 0 then 2 else 3), none⟩)], [], .fin 9999,
    ⟨"g".toList, 640, none⟩, ⟨0, 6, 640, 6, 0⟩⟩

/-- six-hourly accumulation with conversion `x=x*2` on three cells: between the points, outside the clone, without
point. -/
def runAcc : RunIn 2 1 3 where
  ctrl := ⟨runMsgs, true, some 6, "accumulation", false, false, 6, 6, "accum", "accum", 0, 12, false⟩
  conversion := some (some "x=x*2".toList)
  table := .weighted fun c => if c = 2 then [(2, .fin 1), (2, .fin 0)] else [(0, .fin (1 / 2)), (1, .fin (1 / 2))]
  table2 := .nearest fun _ => 0
  mvOut := .fin (-9999)
  height := none
  height2 := none
  mask := some fun c => decide (c = 1)
  mvClone := .fin (-1)
  namePrefix := "pr".toList
  fmap := 1
  ext := 1

/-- numexpr that knows `x*2`. -/
def runNe : NumExpr := fun t => if t = "x*2".toList then some (fun a => a * .fin 2) else none

end Demo

/-- Non-vacuity: the maps of 0–6 and 6–12; the middle cell is outside the clone, the last one has no point. -/
example : Demo.runAcc.pcraster Demo.runNe = .ok
    [("pr000000.001".toList, fun c => if c = 0 then .fin 5 else if c = 1 then .fin (-1) else .fin (-9999)),
     ("pr000000.002".toList, fun c => if c = 0 then .fin 7 else if c = 1 then .fin (-1) else .fin (-9999))] := by
  decide +kernel

example : Means Demo.runNe Demo.runAcc.conversion (fun a => a * .fin 2) := by
  refine Or.inr ⟨"x*2".toList, ?_, by decide, rfl, rfl⟩
  intro a b h
  have h2 : '=' ∈ "x*2".toList := by rw [h]; simp
  revert h2; decide

example : Fits Demo.runAcc.table 2 := by
  intro c p hp
  dsimp only at hp
  split at hp
  · simp at hp
    rcases hp with rfl | rfl <;> decide
  · simp at hp
    rcases hp with rfl | rfl <;> decide

/-- The cell between the points: a weighted sum, as C120 wants it. -/
example (v : Arr 2) : cellOf Demo.runAcc.table (.fin (-9999)) v 0 =
    (([(0, 1 / 2), (1, 1 / 2)] : List (Fin 2 × ℚ)).map fun p => .fin p.2 * v.data p.1).sum := rfl

/-- An average run: two maps of two hours. -/
example : ({ Demo.runAcc with
      ctrl := ⟨Demo.runMsgs, true, some 6, "average", false, false, 6, 6, "instant", "instant", 6, 12, false⟩
      conversion := none
      table := .gribNearest [(0, 1), (2, 0)] } : RunIn 2 1 3).pcraster Demo.runNe = .ok
    [("pr000000.001".toList, fun c => if c = 0 then .fin 3 else if c = 1 then .fin (-1) else .fin 2),
     ("pr000000.002".toList, fun c => if c = 0 then .fin 7 else if c = 1 then .fin (-1) else .fin 5)] := by
  decide +kernel

end PyG2P
