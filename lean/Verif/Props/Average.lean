import Verif.Lemmas.Average
import Verif.Props.Accumulation

/-! # C08-C10, C12-C14, C16 (average, instantaneous) -/

namespace PyG2P
open Spec Aggregator
variable {n : Nat}

namespace Demo
def avg (start end_ step : Int) (half : Bool := false) : Aggregator :=
  Aggregator.init "instant" 6 24 step "average" half false start end_
def inst (start end_ step : Int) (st : String := "instant") : Aggregator :=
  Aggregator.init st 6 24 step "instantaneous" false false start end_
end Demo

theorem doManipulation_avg (ag : Aggregator) (ms : Messages n) (h : ag.aggrType = "average") :
    ag.doManipulation ms = ag.average ms := by
  unfold doManipulation
  rw [if_neg (by rw [h]; decide)]
  exact if_pos h

theorem doManipulation_inst (ag : Aggregator) (ms : Messages n) (h : ag.aggrType = "instantaneous") :
    ag.doManipulation ms = ag.instantaneous ms := by
  unfold doManipulation
  rw [if_neg (by rw [h]; decide), if_neg (by rw [h]; decide)]
  exact if_pos h

/-- The loop of the average covers every requested interval; it covers nothing else unless start is 0. -/
theorem avgStart_mem {ag : Aggregator} (hs : 0 < ag.aggrStep) (h2 : ag.secondTRes = false) (s : Int) :
    (AvgStart ag.start ag.end_ ag.aggrStep s → s ∈ rangeList ag.avgBounds.1 ag.avgBounds.2 ag.aggrStep) ∧
    (ag.start ≠ 0 → s ∈ rangeList ag.avgBounds.1 ag.avgBounds.2 ag.aggrStep →
      AvgStart ag.start ag.end_ ag.aggrStep s) := by
  rw [mem_rangeList hs]
  unfold AvgStart avgBounds firstEnd
  simp only [h2, Bool.false_eq_true, or_false]
  by_cases h0 : ag.start = 0
  · simp only [h0, if_true]
    refine ⟨?_, fun h => absurd rfl h⟩
    rintro ⟨k, hk, hle⟩
    exact ⟨k, by linarith, by linarith⟩
  · simp only [h0, if_false]
    refine ⟨?_, fun _ => ?_⟩
    · rintro ⟨k, hk, hle⟩
      exact ⟨k, hk, by linarith⟩
    · rintro ⟨k, hk, hle⟩
      exact ⟨k, hk, by linarith⟩

theorem avgKey_inj (step res lvl a b : Int) (h : avgKey step res lvl a = avgKey step res lvl b) : a = b :=
  congrArg Step.startStep h

theorem instKey_inj (step res lvl a b : Int) (h : instKey step res lvl a = instKey step res lvl b) : a = b :=
  congrArg Step.startStep h

/-- **C08.** In every successful average, the map of each requested interval `(s, s+step]` is in every cell
the sum over the hours `s+1, ..., s+step` of the field valid at that hour (the message at the hour, else the
next available one), divided by the number of hours `step`. -/
theorem C08_average_value (ag : Aggregator) (ms : Messages n) (out : Dict Step (Arr n))
    (htype : ag.aggrType = "average") (hs : 0 < ag.aggrStep) (h2 : ag.secondTRes = false)
    (hh : ag.halfweights = false) (hrun : ag.doManipulation ms = .ok out) :
    ∃ first, ms.head? = some first ∧
      ∀ s, AvgStart ag.start ag.end_ ag.aggrStep s →
      ∃ (m : Arr n) (F : Int → Arr n),
        Dict.get? out (avgKey ag.aggrStep first.1.resolution first.1.level s) = some m ∧
        (∀ h, s < h → h ≤ s + ag.aggrStep → ValidAt ms h (F h)) ∧
        ∀ i, m.data i =
          ((List.range ag.aggrStep.toNat).map fun (j : Nat) => (F (s + 1 + (j : Int))).data i).sum
            / Num.ofInt ag.aggrStep := by
  rw [doManipulation_avg ag ms htype] at hrun
  obtain ⟨-, first, V, hf, hV, ho⟩ := average_ok ag ms hs out hrun
  refine ⟨first, hf, fun s hs' => ?_⟩
  have hmem := (avgStart_mem hs h2 s).1 hs'
  obtain ⟨F, hF, hm⟩ := (avgVal_plain ag hh hs ms s (V s)).1 (hV s hmem)
  refine ⟨V s, F, ?_, hF, fun i => ?_⟩
  · rw [ho]
    exact get?_of_range (avgKey_inj _ _ _) hmem
  · rw [hm]; rfl

/-- **C08 (keys).** With a start of at least one step, the average has exactly one map per requested
interval, in time order. -/
theorem C08_average_keys (ag : Aggregator) (ms : Messages n) (out : Dict Step (Arr n))
    (htype : ag.aggrType = "average") (hs : 0 < ag.aggrStep) (h2 : ag.secondTRes = false)
    (h0 : ag.start ≠ 0) (hrun : ag.doManipulation ms = .ok out) :
    ∃ first, ms.head? = some first ∧
      (∀ k, k ∈ Dict.keys out ↔ ∃ s, AvgStart ag.start ag.end_ ag.aggrStep s ∧
        k = avgKey ag.aggrStep first.1.resolution first.1.level s) ∧
      (Dict.keys out).Pairwise (fun a b => a.endStep < b.endStep) := by
  rw [doManipulation_avg ag ms htype] at hrun
  obtain ⟨-, first, V, hf, hV, ho⟩ := average_ok ag ms hs out hrun
  refine ⟨first, hf, fun k => ?_, ?_⟩
  · rw [ho, Dict.keys, List.map_map]
    simp only [List.mem_map, Function.comp]
    constructor
    · rintro ⟨t, ht, rfl⟩; exact ⟨t, (avgStart_mem hs h2 t).2 h0 ht, rfl⟩
    · rintro ⟨t, ht, rfl⟩; exact ⟨t, (avgStart_mem hs h2 t).1 ht, rfl⟩
  · rw [ho, Dict.keys, List.map_map, List.pairwise_map]
    refine (rangeList_pairwise hs).imp ?_
    intro a b hab
    show a + ag.aggrStep < b + ag.aggrStep
    omega

/-- Non-vacuity of C08: messages 6 ↦ 2, 12 ↦ 5, average over (0,12] is (6*2+6*5)/12 = 7/2. -/
example : (Demo.avg 12 12 12).doManipulation [Demo.msg 12 (Demo.f 5), Demo.msg 6 (Demo.f 2)] =
    .ok [(⟨0, 12, 640, 12, 0⟩, ⟨fun _ => .fin (7/2), some fun _ => false⟩)] := by decide +kernel

/-- **C09a.** If all input values of a cell lie in `[lo, hi]`, so do all averaged values of that cell. -/
theorem C09_average_bounds (ag : Aggregator) (ms : Messages n) (out : Dict Step (Arr n))
    (htype : ag.aggrType = "average") (hs : 0 < ag.aggrStep)
    (hh : ag.halfweights = false) (hrun : ag.doManipulation ms = .ok out) (i : Fin n) (lo hi : ℚ)
    (hb : ∀ p ∈ ms, ∃ q : ℚ, p.2.data i = .fin q ∧ lo ≤ q ∧ q ≤ hi) :
    ∀ p ∈ out, ∃ q : ℚ, p.2.data i = .fin q ∧ lo ≤ q ∧ q ≤ hi := by
  rw [doManipulation_avg ag ms htype] at hrun
  obtain ⟨-, first, V, hf, hV, ho⟩ := average_ok ag ms hs out hrun
  intro p hp
  rw [ho] at hp
  obtain ⟨s, hsm, rfl⟩ := List.mem_map.1 hp
  obtain ⟨F, hF, hm⟩ := (avgVal_plain ag hh hs ms s (V s)).1 (hV s hsm)
  obtain ⟨q, h1, h2, h3⟩ := sum_fin_bounds (List.range ag.aggrStep.toNat)
    (fun (j : Nat) => (F (s + 1 + (j : Int))).data i) lo hi (by
      intro j hj
      rw [List.mem_range] at hj
      obtain ⟨u, -, hu⟩ := hF (s + 1 + j) (by omega) (by omega)
      obtain ⟨p, hp, hpe, -⟩ := fieldAt_mem hu
      rw [← hpe]; exact hb p hp)
  rw [List.length_range] at h2 h3
  have hc : ((ag.aggrStep.toNat : ℕ) : ℚ) = (ag.aggrStep : ℚ) := by
    have : ((ag.aggrStep.toNat : ℕ) : ℤ) = ag.aggrStep := Int.toNat_of_nonneg (le_of_lt hs)
    exact_mod_cast congrArg (Int.cast : ℤ → ℚ) this
  have hpos : (0 : ℚ) < (ag.aggrStep : ℚ) := by exact_mod_cast hs
  rw [hc] at h2 h3
  refine ⟨q / ag.aggrStep, ?_, ?_, ?_⟩
  · dsimp only
    rw [hm]
    unfold Arr.maskedWhere hourSum
    dsimp only
    rw [h1, Num.ofInt_def, Num.fin_div_of_ne _ hpos.ne']
  · rw [le_div_iff₀ hpos]; linarith
  · rw [div_le_iff₀ hpos]; linarith

/-- **C09b.** A constant field averages to itself. -/
theorem C09_average_constant (ag : Aggregator) (ms : Messages n) (out : Dict Step (Arr n))
    (htype : ag.aggrType = "average") (hs : 0 < ag.aggrStep)
    (hh : ag.halfweights = false) (hrun : ag.doManipulation ms = .ok out) (i : Fin n) (c : ℚ)
    (hc : ∀ p ∈ ms, p.2.data i = .fin c) : ∀ p ∈ out, p.2.data i = .fin c := by
  intro p hp
  obtain ⟨q, h1, h2, h3⟩ := C09_average_bounds ag ms out htype hs hh hrun i c c
    (fun p hp => ⟨c, hc p hp, le_refl _, le_refl _⟩) p hp
  rw [h1, le_antisymm h3 h2]

/-- **C09c.** Averaging is linear: if the averages of two sets of fields `a` and `b` on the same messages
succeed, the average of `c1*a + c2*b` succeeds, with the same keys, and equals `c1*avg(a) + c2*avg(b)`. -/
theorem C09_average_linear (ag : Aggregator) (ms : Messages n) (b : Step → Arr n) (c1 c2 : ℚ)
    (htype : ag.aggrType = "average") (hs : 0 < ag.aggrStep) (hh : ag.halfweights = false)
    (oa ob : Dict Step (Arr n))
    (hra : ag.doManipulation ms = .ok oa)
    (hrb : ag.doManipulation (ms.map fun p => (p.1, b p.1)) = .ok ob) :
    ∃ o, ag.doManipulation (ms.map fun p =>
        (p.1, Arr.plain fun i => .fin c1 * p.2.data i + .fin c2 * (b p.1).data i)) = .ok o ∧
      Dict.keys o = Dict.keys oa ∧ Dict.keys ob = Dict.keys oa ∧
      ∀ k ∈ Dict.keys oa, ∃ m ma mb, Dict.get? o k = some m ∧ Dict.get? oa k = some ma ∧
        Dict.get? ob k = some mb ∧
        ∀ i, Arr.data m i = .fin c1 * Arr.data ma i + .fin c2 * Arr.data mb i := by
  rw [doManipulation_avg ag _ htype] at hra hrb
  rw [doManipulation_avg ag _ htype]
  obtain ⟨hst, first, A, hf, hA, hoa⟩ := average_ok ag ms hs oa hra
  obtain ⟨-, first', B, hf', hB, hob⟩ := average_ok ag _ hs ob hrb
  have hfb := head?_map ms (fun p => b p.1) first hf
  rw [hfb] at hf'
  injection hf' with hf'
  subst hf'
  have hval : ∀ s ∈ rangeList ag.avgBounds.1 ag.avgBounds.2 ag.aggrStep,
      avgVal ag (vOrd (ms.map fun p =>
        (p.1, Arr.plain fun i => .fin c1 * p.2.data i + .fin c2 * (b p.1).data i))) s =
      .ok (Arr.maskedWhere none fun i => .fin c1 * (A s).data i + .fin c2 * (B s).data i) := by
    intro s hsm
    obtain ⟨FA, hFA, hmA⟩ := (avgVal_plain ag hh hs ms s (A s)).1 (hA s hsm)
    obtain ⟨FB, hFB, hmB⟩ := (avgVal_plain ag hh hs _ s (B s)).1 (hB s hsm)
    have hval : ∀ h, s < h → h ≤ s + ag.aggrStep → ValidAt (ms.map fun p =>
        (p.1, Arr.plain fun i => .fin c1 * p.2.data i + .fin c2 * (b p.1).data i)) h
        (Arr.plain fun i => .fin c1 * (FA h).data i + .fin c2 * (FB h).data i) := by
      intro h h1 h2
      obtain ⟨p, hp, hpA⟩ := (validAt_iff ms h _).1 (hFA h h1 h2)
      obtain ⟨q, hq, hqB⟩ := (validAt_map ms (fun p => b p.1) h _).1 (hFB h h1 h2)
      have := MsgAt_unique hp hq
      subst this
      rw [← hpA, ← hqB]
      exact (validAt_map ms (fun p => Arr.plain fun i =>
        .fin c1 * p.2.data i + .fin c2 * (b p.1).data i) h _).2 ⟨p, hp, rfl⟩
    refine (avgVal_plain ag hh hs _ s _).2 ⟨_, hval, ?_⟩
    congr 1
    funext i
    rw [hmA, hmB]
    unfold hourSum Arr.maskedWhere Arr.plain
    dsimp only
    rw [sum_lin, Num.add_div', Num.mul_div', Num.mul_div']
  have hfo := head?_map ms (fun p => Arr.plain fun i =>
        .fin c1 * p.2.data i + .fin c2 * (b p.1).data i) first hf
  obtain ⟨o, ho⟩ := fold_out_total (avgIter_eq ag _ first.1.resolution first.1.level) _
    (fun s hsm => ⟨_, hval s hsm⟩) []
  have hrun := average_intro ag _ hs hst _ hfo
  rw [ho] at hrun
  obtain ⟨-, f3, C, hf3, hC, hoc⟩ := average_ok ag _ hs o hrun
  rw [hfo] at hf3
  injection hf3 with hf3
  subst hf3
  refine ⟨o, hrun, ?_, ?_, ?_⟩
  · rw [hoc, hoa, Dict.keys, Dict.keys, List.map_map, List.map_map]; rfl
  · rw [hob, hoa, Dict.keys, Dict.keys, List.map_map, List.map_map]; rfl
  · intro k hk
    rw [hoa, Dict.keys, List.map_map] at hk
    obtain ⟨s, hsm, rfl⟩ := List.mem_map.1 hk
    refine ⟨C s, A s, B s, ?_, ?_, ?_, ?_⟩
    · rw [hoc]; exact get?_of_range (avgKey_inj _ _ _) hsm
    · rw [hoa]; exact get?_of_range (avgKey_inj _ _ _) hsm
    · rw [hob]; exact get?_of_range (avgKey_inj _ _ _) hsm
    · intro i
      have h1 := hC s hsm
      rw [hval s hsm] at h1
      injection h1 with h1
      rw [← h1]; rfl

/-- Non-vacuity of C09: a successful run with values 2 and 5 within [2, 5]. -/
example : (Demo.avg 12 12 12).doManipulation [Demo.msg 12 (Demo.f 5), Demo.msg 6 (Demo.f 2)] =
      .ok [(⟨0, 12, 640, 12, 0⟩, ⟨fun _ => .fin (7/2), some fun _ => false⟩)] ∧
    (Demo.avg 12 12 12).doManipulation [Demo.msg 12 (Demo.f 1), Demo.msg 6 (Demo.f 1)] =
      .ok [(⟨0, 12, 640, 12, 0⟩, ⟨fun _ => .fin 1, some fun _ => false⟩)] := by decide +kernel

/-- **C10 (partial).** For averages, start 0 gives the same result as start = step whenever `end + 1` is not
a multiple of the step. Missing: the other residue, where it is false (`C10_violated`). -/
theorem C10_average_start_zero_partial (ag : Aggregator) (ms : Messages n)
    (htype : ag.aggrType = "average") (hs : 0 < ag.aggrStep) (h2 : ag.secondTRes = false)
    (h0 : ag.start = 0) (hend : (ag.end_ + 1) % ag.aggrStep ≠ 0) :
    ag.doManipulation ms = ({ ag with start := ag.aggrStep } : Aggregator).doManipulation ms := by
  rw [doManipulation_avg ag ms htype,
    doManipulation_avg ({ ag with start := ag.aggrStep } : Aggregator) ms htype]
  unfold average
  have hr : pyRange ag.avgBounds.1 ag.avgBounds.2 ag.aggrStep =
      pyRange ({ ag with start := ag.aggrStep } : Aggregator).avgBounds.1
        ({ ag with start := ag.aggrStep } : Aggregator).avgBounds.2 ag.aggrStep := by
    rw [pyRange_pos hs, pyRange_pos hs]
    unfold avgBounds
    simp only [h0, h2, true_or, if_true]
    rw [if_neg (by simp; omega)]
    simp only [sub_self]
    unfold rangeList
    congr 3
    have e1 : ag.end_ - ag.aggrStep + 2 - 0 + ag.aggrStep - 1 = ag.end_ + 1 := by ring
    have e2 : ag.end_ - ag.aggrStep + 1 - 0 + ag.aggrStep - 1 = ag.end_ := by ring
    rw [e1, e2]
    congr 1
    -- same quotient
    have hm := Int.emod_add_mul_ediv (ag.end_ + 1) ag.aggrStep
    have hnn := Int.emod_nonneg (ag.end_ + 1) hs.ne'
    have hlt := Int.emod_lt_of_pos (ag.end_ + 1) hs
    set q := (ag.end_ + 1) / ag.aggrStep with hq
    set r := (ag.end_ + 1) % ag.aggrStep with hrr
    have : ag.end_ = (r - 1) + q * ag.aggrStep := by linarith [mul_comm q ag.aggrStep]
    rw [this, Int.add_mul_ediv_right _ _ hs.ne', Int.ediv_eq_zero_of_lt (by omega) (by omega), zero_add]
  rw [show ({ ag with start := ag.aggrStep } : Aggregator).aggrStep = ag.aggrStep from rfl, ← hr]
  rfl

example : (Demo.avg 0 12 6).doManipulation [Demo.msg 12 (Demo.f 5), Demo.msg 6 (Demo.f 2)] =
    .ok [(⟨0, 6, 640, 6, 0⟩, ⟨fun _ => .fin 2, some fun _ => false⟩),
      (⟨6, 12, 640, 6, 0⟩, ⟨fun _ => .fin 5, some fun _ => false⟩)] := by decide +kernel

/-- **C10 is violated**: requested end 11, step 6. From start 6 one gets the interval (0,6] only, from
start 0 also (6,12], which ends after the requested end. -/
theorem C10_violated : ∃ (ag : Aggregator) (ms : Messages 1), ag.aggrType = "average" ∧ ag.start = 0 ∧
    (({ ag with start := ag.aggrStep } : Aggregator).doManipulation ms).map Dict.keys
      = .ok [⟨0, 6, 640, 6, 0⟩] ∧
    (ag.doManipulation ms).map Dict.keys = .ok [⟨0, 6, 640, 6, 0⟩, ⟨6, 12, 640, 6, 0⟩] ∧ ag.end_ = 11 :=
  ⟨Demo.avg 0 11 6, [Demo.msg 12 (Demo.f 5), Demo.msg 6 (Demo.f 2)], rfl, rfl, by decide +kernel,
    by decide +kernel, rfl⟩

/-- The same run with data only up to the requested end: start 6 works, start 0 crashes. -/
theorem C10_violated_crash : ∃ (ag : Aggregator) (ms : Messages 1), ag.aggrType = "average" ∧ ag.start = 0 ∧
    (∃ o, ({ ag with start := ag.aggrStep } : Aggregator).doManipulation ms = .ok o) ∧
    ag.doManipulation ms = .error .indexError :=
  ⟨Demo.avg 0 11 6, [Demo.msg 11 (Demo.f 5), Demo.msg 6 (Demo.f 2)], rfl, rfl,
    ⟨[(⟨0, 6, 640, 6, 0⟩, ⟨fun _ => .fin 2, some fun _ => false⟩)], by decide +kernel⟩, by decide +kernel⟩

/-- First extracted step: `start - step` when positive, else `start`; for step type `avg` it is
`start + input step`. -/
def Spec.instFirst (stepType : String) (start step inputStep : Int) : Int :=
  if stepType = "avg" then start + inputStep else if 0 < start - step then start - step else start

/-- **C12.** A successful instantaneous extraction has exactly one map per `t` in
`first, first+step, ... ≤ end`, keyed `(t,t)`, in time order; its values are those of the field at `t`,
zeros at `t = 0` without a message, otherwise those of the next available field. -/
theorem C12_instantaneous (ag : Aggregator) (ms : Messages n) (out : Dict Step (Arr n))
    (htype : ag.aggrType = "instantaneous") (hs : 0 < ag.aggrStep)
    (hrun : ag.doManipulation ms = .ok out) :
    ∃ first, ms.head? = some first ∧
      (∀ k, k ∈ Dict.keys out ↔
        ∃ t, InRange (instFirst ag.stepType ag.start ag.aggrStep ag.inputStep) ag.end_ ag.aggrStep t ∧
        k = instKey ag.aggrStep first.1.resolution first.1.level t) ∧
      (Dict.keys out).Pairwise (fun a b => a.endStep < b.endStep) ∧
      ∀ t, InRange (instFirst ag.stepType ag.start ag.aggrStep ag.inputStep) ag.end_ ag.aggrStep t →
        ∃ m, Dict.get? out (instKey ag.aggrStep first.1.resolution first.1.level t) = some m ∧
          if t = 0 ∧ ¬ Avail ms 0 then ∀ i, m.data i = 0
          else ∃ v, ValidAt ms t v ∧ ∀ i, m.data i = v.data i := by
  rw [doManipulation_inst ag ms htype] at hrun
  obtain ⟨-, first, V, hf, hV, ho⟩ := instantaneous_ok ag ms hs out hrun
  have hmem : ∀ t, t ∈ rangeList ag.findStart (ag.end_ + 1) ag.aggrStep ↔
      InRange (instFirst ag.stepType ag.start ag.aggrStep ag.inputStep) ag.end_ ag.aggrStep t := by
    intro t
    have : ag.findStart = instFirst ag.stepType ag.start ag.aggrStep ag.inputStep := rfl
    rw [mem_rangeList hs, this]
    unfold InRange
    constructor
    · rintro ⟨k, h1, h2⟩; exact ⟨k, h1, by omega⟩
    · rintro ⟨k, h1, h2⟩; exact ⟨k, h1, by omega⟩
  refine ⟨first, hf, fun k => ?_, ?_, fun t ht => ?_⟩
  · rw [ho, Dict.keys, List.map_map]
    simp only [List.mem_map, Function.comp, hmem]
    constructor
    · rintro ⟨t, ht, rfl⟩; exact ⟨t, ht, rfl⟩
    · rintro ⟨t, ht, rfl⟩; exact ⟨t, ht, rfl⟩
  · rw [ho, Dict.keys, List.map_map, List.pairwise_map]
    exact rangeList_pairwise hs
  · refine ⟨V t, ?_, ?_⟩
    · rw [ho]; exact get?_of_range (instKey_inj _ _ _) ((hmem t).2 ht)
    · rcases (instField_ok ms t (V t)).1 (hV t ((hmem t).2 ht)) with ⟨h1, v, hv, hm⟩ | ⟨h1, h2, hm⟩
      · rw [if_neg]
        · exact ⟨v, hv, fun i => by rw [hm]⟩
        · rintro ⟨rfl, h⟩; rcases h1 with h1 | h1
          · exact h h1
          · exact h1 rfl
      · rw [if_pos ⟨h2, h2 ▸ h1⟩, hm]
        intro i; rfl

/-- Non-vacuity of C12: message 6 and 12, extraction at 0, 4, 8, 12. -/
example : (Demo.inst 0 12 4).doManipulation [Demo.msg 12 (Demo.f 5), Demo.msg 6 (Demo.f 2)] =
    .ok [(⟨0, 0, 640, 4, 0⟩, Demo.f 0), (⟨4, 4, 640, 4, 0⟩, Demo.f 2), (⟨8, 8, 640, 4, 0⟩, Demo.f 5),
      (⟨12, 12, 640, 4, 0⟩, Demo.f 5)] := by decide +kernel

/-- **C13.** Average and instantaneous extraction of an accumulated parameter always raise 6100. -/
theorem C13_refused (ag : Aggregator) (ms : Messages n)
    (htype : ag.aggrType = "average" ∨ ag.aggrType = "instantaneous") (hst : ag.stepType = "accum") :
    ag.doManipulation ms = .error (.app 6100) := by
  rcases htype with h | h
  · rw [doManipulation_avg ag ms h]; unfold average; exact if_pos hst
  · rw [doManipulation_inst ag ms h]; unfold instantaneous; exact if_pos hst


/-- A computation that raises no application error. -/
def NoApp {α : Type} (x : Py α) : Prop := ∀ c, x ≠ .error (.app c)

theorem NoApp.ok {α : Type} (a : α) : NoApp (.ok a : Py α) := by intro c h; cases h
theorem NoApp.bind {α β : Type} {x : Py α} {f : α → Py β} (hx : NoApp x) (hf : ∀ a, NoApp (f a)) :
    NoApp (x >>= f) := by
  intro c h
  cases x with
  | error e => exact hx c (by simpa [Bind.bind, Except.bind] using h)
  | ok a => exact hf a c h
theorem noApp_pyGet {α : Type} (l : List α) (i : Int) : NoApp (pyGet l i) := by
  intro c h
  unfold pyGet at h
  dsimp only at h
  repeat' split at h
  all_goals cases h
theorem noApp_getE {κ α : Type} [DecidableEq κ] (d : Dict κ α) (k : κ) : NoApp (Dict.getE d k) := by
  intro c h
  unfold Dict.getE at h
  split at h <;> cases h
theorem noApp_pyRange (a b s : Int) : NoApp (pyRange a b s) := by
  intro c h; unfold pyRange at h; split at h <;> cases h
theorem noApp_foldlM {α β : Type} (f : β → α → Py β) (l : List α) (hf : ∀ b a, NoApp (f b a)) :
    ∀ b, NoApp (l.foldlM f b) := by
  induction l with
  | nil => intro b; exact NoApp.ok b
  | cons x l ih => intro b; rw [List.foldlM_cons]; exact (hf b x).bind ih

/-- **C13 (accumulation).** Accumulation never refuses: it raises no application error, whatever the
parameter type. -/
theorem C13_accumulation_never_refused (ag : Aggregator) (ms : Messages n)
    (htype : ag.aggrType = "accumulation") (c : Nat) : ag.doManipulation ms ≠ .error (.app c) := by
  rw [doManipulation_acc ag ms htype]
  have hfill : ∀ (keys : List Int) (vo : Dict Int (Arr n)) it, NoApp (accFillCur keys vo it) := by
    intro keys vo it
    unfold accFillCur
    split
    · exact NoApp.ok _
    · refine (noApp_pyGet _ _).bind fun _ => (noApp_getE _ _).bind fun _ => ?_
      exact (noApp_pyGet _ _).bind fun _ => (noApp_getE _ _).bind fun _ => NoApp.ok _
  have hfillp : ∀ (keys : List Int) (vo : Dict Int (Arr n)) z it prev,
      NoApp (accFillPrev keys vo z it prev) := by
    intro keys vo z it prev
    unfold accFillPrev
    split
    · refine (noApp_pyGet _ _).bind fun _ => ?_
      split
      · exact NoApp.ok _
      · refine (noApp_getE _ _).bind fun _ => ?_
        exact (noApp_pyGet _ _).bind fun _ => (noApp_getE _ _).bind fun _ => NoApp.ok _
    · exact NoApp.ok _
  have hprev : ∀ (vo : Dict Int (Arr n)) prev, NoApp (accPrev ag vo prev) := by
    intro vo prev; unfold accPrev; split
    · exact NoApp.ok _
    · exact noApp_getE _ _
  unfold accumulation
  refine ((noApp_pyGet _ _).bind fun _ => (noApp_pyRange _ _ _).bind fun _ =>
    (noApp_foldlM _ _ ?_ _).bind fun _ => NoApp.ok _) c
  intro st it
  unfold accIter
  exact (hfill _ _ _).bind fun _ => (hfillp _ _ _ _ _).bind fun r =>
    (hprev _ _).bind fun _ => (noApp_getE _ _).bind fun _ => NoApp.ok _

example : (Demo.inst 0 12 4 "accum").doManipulation [Demo.msg 12 (Demo.f 5)] = .error (.app 6100) := by
  decide +kernel

end PyG2P
