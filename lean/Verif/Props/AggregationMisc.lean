import Verif.Props.HalfWeights

/-! # C07 (average, instantaneous), C14, C16 -/

namespace PyG2P
open Spec Aggregator
variable {n : Nat}

/-- **C07 is violated** for averages: every field is masked in the cell, the average is not. -/
theorem C07_mask_lost_average : ∃ (ag : Aggregator) (ms : Messages 1) (m : Arr 1),
    ag.aggrType = "average" ∧ ag.doManipulation ms = .ok [(⟨0, 6, 640, 6, 0⟩, m)] ∧
    (∀ p ∈ ms, p.2.masked 0 = true) ∧ ms ≠ [] ∧ m.masked 0 = false :=
  ⟨Demo.avg 6 6 6, [Demo.msg 6 (Demo.fm 5)], ⟨fun _ => .fin 5, some fun _ => false⟩,
    rfl, by decide +kernel, by decide +kernel, by decide, rfl⟩

/-- **C07 is violated** for instantaneous extraction. -/
theorem C07_mask_lost_instantaneous : ∃ (ag : Aggregator) (ms : Messages 1) (m : Arr 1),
    ag.aggrType = "instantaneous" ∧ ag.doManipulation ms = .ok [(⟨6, 6, 640, 6, 0⟩, m)] ∧
    (∀ p ∈ ms, p.2.masked 0 = true) ∧ ms ≠ [] ∧ m.masked 0 = false :=
  ⟨Demo.inst 6 6 6, [Demo.msg 6 (Demo.fm 5)], Demo.f 5,
    rfl, by decide +kernel, by decide +kernel, by decide, rfl⟩

/-- **C14a.** Accumulation: an interval ending after the last available step makes the run fail. -/
theorem C14_accumulation_fails (ag : Aggregator) (ms : Messages n)
    (htype : ag.aggrType = "accumulation") (hs : 0 < ag.aggrStep) (t : Int)
    (ht : InRange (firstEnd ag.start ag.aggrStep) ag.end_ ag.aggrStep t)
    (hno : ∀ u, Avail ms u → u < t) : ∃ e, ag.doManipulation ms = .error e := by
  rw [doManipulation_acc ag ms htype]
  cases hrun : ag.accumulation ms with
  | error e => exact ⟨e, rfl⟩
  | ok out =>
    exfalso
    obtain ⟨f', V, hf', hV, ho, hgap, hz⟩ := accumulation_ok ag ms hs out hrun
    have hav : Avail ms f'.1.endStep := ⟨f', List.mem_of_head? hf', rfl⟩
    have hna : ¬ Avail ms t := fun h => absurd (hno t h) (lt_irrefl _)
    obtain ⟨o, nx, vO, vN, -, h2, -, h4, -⟩ :=
      hgap t ((mem_range_iff hs).2 ht) hna ⟨_, hav, hno _ hav⟩
    have := hno nx h2.1
    omega

example : (Demo.acc 12 18 6).doManipulation [Demo.msg 6 (Demo.f 1), Demo.msg 12 (Demo.f 2)]
    = .error .indexError := by decide +kernel

/-- **C14b.** Average (without half weights): an interval ending after the last available step makes the run
fail with `IndexError`. -/
theorem C14_average_fails (ag : Aggregator) (ms : Messages n) (hne : ms ≠ [])
    (htype : ag.aggrType = "average") (hs : 0 < ag.aggrStep) (h2 : ag.secondTRes = false)
    (hst : ag.stepType ≠ "accum") (hh : ag.halfweights = false) (s : Int)
    (hsr : AvgStart ag.start ag.end_ ag.aggrStep s)
    (hno : ∀ u, Avail ms u → u < s + ag.aggrStep) : ag.doManipulation ms = .error .indexError := by
  rw [doManipulation_avg ag ms htype]
  obtain ⟨p, ms', rfl⟩ := List.exists_cons_of_ne_nil hne
  rw [average_intro ag _ hs hst p rfl]
  refine fold_out_fail (avgIter_eq ag _ p.1.resolution p.1.level) _ ?_
    ⟨s, (avgStart_mem hs h2 s).1 hsr, avgVal_plain_fail ag hh hs _ s hno⟩ []
  intro t _
  by_cases hex : ∃ u, Avail (p :: ms') u ∧ t + ag.aggrStep ≤ u
  · exact Or.inl (avgVal_plain_total ag hh hs _ t hex)
  · right
    apply avgVal_plain_fail ag hh hs
    intro u hu
    by_contra hc
    exact hex ⟨u, hu, by omega⟩

example : (Demo.avg 12 18 6).doManipulation [Demo.msg 6 (Demo.f 1), Demo.msg 12 (Demo.f 2)]
    = .error .indexError := by decide +kernel

/-- **C14c.** Average: with a start of at least one step and data reaching the end of the range, the run
succeeds. -/
theorem C14_average_succeeds (ag : Aggregator) (ms : Messages n)
    (htype : ag.aggrType = "average") (hs : 0 < ag.aggrStep) (h2 : ag.secondTRes = false)
    (hst : ag.stepType ≠ "accum") (hh : ag.halfweights = false) (h0 : ag.start ≠ 0)
    (hex : ∃ u, Avail ms u ∧ ag.end_ ≤ u) : ∃ out, ag.doManipulation ms = .ok out := by
  rw [doManipulation_avg ag ms htype]
  obtain ⟨u, hu, hle⟩ := hex
  have hne : ms ≠ [] := by rintro rfl; obtain ⟨p, hp, -⟩ := hu; simp at hp
  obtain ⟨p, ms', rfl⟩ := List.exists_cons_of_ne_nil hne
  rw [average_intro ag _ hs hst p rfl]
  refine fold_out_total (avgIter_eq ag _ p.1.resolution p.1.level) _ ?_ []
  intro t ht
  obtain ⟨k, hk, hle'⟩ := (avgStart_mem hs h2 t).2 h0 ht
  exact avgVal_plain_total ag hh hs _ t ⟨u, hu, by omega⟩

example : ∃ o, (Demo.avg 6 12 6).doManipulation [Demo.msg 13 (Demo.f 1)] = .ok o :=
  ⟨[(⟨0, 6, 640, 6, 0⟩, ⟨fun _ => .fin 1, some fun _ => false⟩),
    (⟨6, 12, 640, 6, 0⟩, ⟨fun _ => .fin 1, some fun _ => false⟩)], by decide +kernel⟩

/-- **C14d.** Instantaneous: a step after the last available one makes the run fail with `IndexError`. -/
theorem C14_instantaneous_fails (ag : Aggregator) (ms : Messages n) (hne : ms ≠ [])
    (htype : ag.aggrType = "instantaneous") (hs : 0 < ag.aggrStep)
    (hst : ag.stepType ≠ "accum") (t : Int) (h0 : t ≠ 0)
    (htr : InRange (instFirst ag.stepType ag.start ag.aggrStep ag.inputStep) ag.end_ ag.aggrStep t)
    (hno : ∀ u, Avail ms u → u < t) : ag.doManipulation ms = .error .indexError := by
  rw [doManipulation_inst ag ms htype]
  obtain ⟨p, ms', rfl⟩ := List.exists_cons_of_ne_nil hne
  rw [instantaneous_intro ag _ hs hst p rfl]
  refine fold_out_fail (instIter_eq ag _ p.1.resolution p.1.level) _ ?_ ⟨t, ?_, instField_none _ t h0 hno⟩ []
  · intro x _
    by_cases hx0 : x = 0
    · subst hx0
      by_cases ha : Avail (p :: ms') 0
      · obtain ⟨v, hv⟩ := exists_valid (p :: ms') 0 ⟨0, ha, le_refl _⟩
        exact Or.inl ⟨_, (instField_ok _ _ _).2 (Or.inl ⟨Or.inl ha, v, hv, rfl⟩)⟩
      · exact Or.inl ⟨_, (instField_ok _ _ _).2 (Or.inr ⟨ha, rfl, rfl⟩)⟩
    · by_cases hex : ∃ u, Avail (p :: ms') u ∧ x ≤ u
      · obtain ⟨v, hv⟩ := exists_valid (p :: ms') x hex
        exact Or.inl ⟨_, (instField_ok _ _ _).2 (Or.inl ⟨Or.inr hx0, v, hv, rfl⟩)⟩
      · right
        apply instField_none _ _ hx0
        intro u hu
        by_contra hc
        exact hex ⟨u, hu, by omega⟩
  · obtain ⟨k, hk, hle⟩ := htr
    exact (mem_rangeList hs).2 ⟨k, hk, by omega⟩

example : (Demo.inst 12 18 6).doManipulation [Demo.msg 6 (Demo.f 1), Demo.msg 12 (Demo.f 2)]
    = .error .indexError := by decide +kernel

/-- **C14e.** Instantaneous: with data reaching the end of the range the run succeeds. -/
theorem C14_instantaneous_succeeds (ag : Aggregator) (ms : Messages n)
    (htype : ag.aggrType = "instantaneous") (hs : 0 < ag.aggrStep) (hst : ag.stepType ≠ "accum")
    (hex : ∃ u, Avail ms u ∧ ag.end_ ≤ u) : ∃ out, ag.doManipulation ms = .ok out := by
  rw [doManipulation_inst ag ms htype]
  obtain ⟨u, hu, hle⟩ := hex
  have hne : ms ≠ [] := by rintro rfl; obtain ⟨p, hp, -⟩ := hu; simp at hp
  obtain ⟨p, ms', rfl⟩ := List.exists_cons_of_ne_nil hne
  rw [instantaneous_intro ag _ hs hst p rfl]
  refine fold_out_total (instIter_eq ag _ p.1.resolution p.1.level) _ ?_ []
  intro x hx
  obtain ⟨k, hk, hlt⟩ := (mem_rangeList hs).1 hx
  by_cases hc : Avail (p :: ms') x ∨ x ≠ 0
  · obtain ⟨v, hv⟩ := exists_valid (p :: ms') x ⟨u, hu, by omega⟩
    exact ⟨_, (instField_ok _ _ _).2 (Or.inl ⟨hc, v, hv, rfl⟩)⟩
  · have hc' : ¬ Avail (p :: ms') x ∧ x = 0 := by tauto
    exact ⟨_, (instField_ok _ _ _).2 (Or.inr ⟨hc'.1, hc'.2, rfl⟩)⟩

example : ∃ o, (Demo.inst 6 12 6).doManipulation [Demo.msg 13 (Demo.f 1)] = .ok o :=
  ⟨[(⟨6, 6, 640, 6, 0⟩, Demo.f 1), (⟨12, 12, 640, 6, 0⟩, Demo.f 1)], by decide +kernel⟩

/-- **C14 is violated** with half weights: the data stop at 6, yet a map for (0,12] is produced without an
error. -/
theorem C14_halfweights_silent : ∃ (ag : Aggregator) (ms : Messages 1) (m : Arr 1),
    ag.aggrType = "average" ∧ ag.halfweights = true ∧ (∀ u, Avail ms u → u < 12) ∧
    ag.doManipulation ms = .ok [(⟨0, 12, 640, 12, 0⟩, m)] ∧ m.data 0 = .fin (5/3) := by
  refine ⟨Demo.avg 12 12 12 true, [Demo.msg 0 (Demo.f 1), Demo.msg 6 (Demo.f 2)],
    ⟨fun _ => .fin (5/3), some fun _ => false⟩, rfl, rfl, ?_, by decide +kernel, rfl⟩
  rintro u ⟨p, hp, rfl⟩
  simp only [List.mem_cons, List.not_mem_nil, or_false] at hp
  rcases hp with rfl | rfl <;> decide

/-! ## C16: locality -/

/-- **C16a.** An averaged map depends only on the fields valid at the hours of its own interval: two
successful runs whose inputs agree there produce the same map. -/
theorem C16_average_local (ag : Aggregator) (ms ms' : Messages n) (out out' : Dict Step (Arr n))
    (htype : ag.aggrType = "average") (hs : 0 < ag.aggrStep) (h2 : ag.secondTRes = false)
    (hh : ag.halfweights = false)
    (hrun : ag.doManipulation ms = .ok out) (hrun' : ag.doManipulation ms' = .ok out')
    (first first' : Step × Arr n) (hf : ms.head? = some first) (hf' : ms'.head? = some first')
    (s : Int) (hsr : AvgStart ag.start ag.end_ ag.aggrStep s)
    (hagree : ∀ h v, s < h → h ≤ s + ag.aggrStep → ValidAt ms h v → ValidAt ms' h v) :
    Dict.get? out (avgKey ag.aggrStep first.1.resolution first.1.level s)
      = Dict.get? out' (avgKey ag.aggrStep first'.1.resolution first'.1.level s) := by
  rw [doManipulation_avg ag _ htype] at hrun hrun'
  obtain ⟨-, f1, V, hf1, hV, ho⟩ := average_ok ag ms hs out hrun
  obtain ⟨-, f2, V', hf2, hV', ho'⟩ := average_ok ag ms' hs out' hrun'
  rw [hf] at hf1; injection hf1 with hf1; subst hf1
  rw [hf'] at hf2; injection hf2 with hf2; subst hf2
  have hmem := (avgStart_mem hs h2 s).1 hsr
  rw [ho, ho', get?_of_range (avgKey_inj _ _ _) hmem, get?_of_range (avgKey_inj _ _ _) hmem]
  obtain ⟨F, hF, hm⟩ := (avgVal_plain ag hh hs ms s (V s)).1 (hV s hmem)
  have : avgVal ag (vOrd ms') s = .ok (V s) :=
    (avgVal_plain ag hh hs ms' s (V s)).2 ⟨F, fun h h1 h3 => hagree h _ h1 h3 (hF h h1 h3), hm⟩
  rw [hV' s hmem] at this
  injection this with this
  rw [this]

/-- **C16b.** An instantaneous map depends only on the field valid at its own step. -/
theorem C16_instantaneous_local (ag : Aggregator) (ms ms' : Messages n) (out out' : Dict Step (Arr n))
    (htype : ag.aggrType = "instantaneous") (hs : 0 < ag.aggrStep)
    (hrun : ag.doManipulation ms = .ok out) (hrun' : ag.doManipulation ms' = .ok out')
    (first first' : Step × Arr n) (hf : ms.head? = some first) (hf' : ms'.head? = some first')
    (t : Int)
    (ht : InRange (instFirst ag.stepType ag.start ag.aggrStep ag.inputStep) ag.end_ ag.aggrStep t)
    (hagree : fieldAt ms t = fieldAt ms' t) (hagree' : ∀ v, ValidAt ms t v → ValidAt ms' t v) :
    Dict.get? out (instKey ag.aggrStep first.1.resolution first.1.level t)
      = Dict.get? out' (instKey ag.aggrStep first'.1.resolution first'.1.level t) := by
  rw [doManipulation_inst ag _ htype] at hrun hrun'
  obtain ⟨-, f1, V, hf1, hV, ho⟩ := instantaneous_ok ag ms hs out hrun
  obtain ⟨-, f2, V', hf2, hV', ho'⟩ := instantaneous_ok ag ms' hs out' hrun'
  rw [hf] at hf1; injection hf1 with hf1; subst hf1
  rw [hf'] at hf2; injection hf2 with hf2; subst hf2
  have hmem : t ∈ rangeList ag.findStart (ag.end_ + 1) ag.aggrStep := by
    obtain ⟨k, hk, hle⟩ := ht
    exact (mem_rangeList hs).2 ⟨k, hk, by omega⟩
  rw [ho, ho', get?_of_range (instKey_inj _ _ _) hmem, get?_of_range (instKey_inj _ _ _) hmem]
  have hav : Avail ms t ↔ Avail ms' t := by rw [avail_iff, avail_iff, hagree]
  have : instField (vOrd ms') t = .ok (V t) := by
    rw [instField_ok]
    rcases (instField_ok ms t (V t)).1 (hV t hmem) with ⟨h1, v, hv, hm⟩ | ⟨h1, h2, hm⟩
    · exact Or.inl ⟨by rwa [← hav], v, hagree' v hv, hm⟩
    · exact Or.inr ⟨by rwa [← hav], h2, hm⟩
  rw [hV' t hmem] at this
  injection this with this
  rw [this]

/-- Two message sets agree at step `x`: same message there, or no message and the same neighbours with the same
fields. -/
def Spec.AgreeAt (ms ms' : Messages n) (x : Int) : Prop :=
  fieldAt ms x = fieldAt ms' x ∧
    ∀ o p, IsPrev ms x o → IsNext ms x p →
      IsPrev ms' x o ∧ IsNext ms' x p ∧ fieldAt ms o = fieldAt ms' o ∧ fieldAt ms p = fieldAt ms' p

theorem IsPrev_unique {ms : Messages n} {h u u' : Int} (h1 : IsPrev ms h u) (h2 : IsPrev ms h u') :
    u = u' := le_antisymm (h2.2.2 u h1.1 h1.2.1) (h1.2.2 u' h2.1 h2.2.1)

theorem lin_agree {ms ms' : Messages n} {x w : Int} {a a' : Arr n} (hag : AgreeAt ms ms' x)
    (h : LinAt ms x w a) (h' : LinAt ms' x w a') : a = a' := by
  obtain ⟨o, p, vo, vp, h1, h2, -, -, h3, h4, rfl⟩ := h
  obtain ⟨o', p', vo', vp', h1', h2', -, -, h3', h4', rfl⟩ := h'
  obtain ⟨g1, g2, g3, g4⟩ := hag.2 o p h1 h2
  have e1 := IsPrev_unique g1 h1'
  have e2 := IsNext_unique g2 h2'
  subst e1 e2
  rw [g3, h3'] at h3
  rw [g4, h4'] at h4
  injection h3 with h3
  injection h4 with h4
  rw [h3, h4]

/-- **C16c.** An accumulated map depends only on the fields at the two ends of its interval, or on the nearest
available fields around an end without a message (data before the first interval are assumed to exist, or step 0
is the start). -/
theorem C16_accumulation_local (ag : Aggregator) (ms ms' : Messages n) (out out' : Dict Step (Arr n))
    (htype : ag.aggrType = "accumulation") (hs : 0 < ag.aggrStep)
    (hrun : ag.doManipulation ms = .ok out) (hrun' : ag.doManipulation ms' = .ok out')
    (first first' : Step × Arr n) (hf : ms.head? = some first) (hf' : ms'.head? = some first')
    (t : Int) (ht : InRange (firstEnd ag.start ag.aggrStep) ag.end_ ag.aggrStep t)
    (hlow : ∃ u, Avail ms u ∧ (u ≤ t - ag.aggrStep ∨ t = ag.aggrStep ∧ u ≤ t))
    (hlow' : ∃ u, Avail ms' u ∧ (u ≤ t - ag.aggrStep ∨ t = ag.aggrStep ∧ u ≤ t))
    (h1 : AgreeAt ms ms' t) (h2 : AgreeAt ms ms' (t - ag.aggrStep))
    (hfirstle : 0 ≤ firstEnd ag.start ag.aggrStep - ag.aggrStep) :
    Dict.get? out (intervalKey ag.aggrStep first.1.resolution first.1.level t)
      = Dict.get? out' (intervalKey ag.aggrStep first'.1.resolution first'.1.level t) := by
  rw [doManipulation_acc ag _ htype] at hrun hrun'
  obtain ⟨f1, V, hf1, hV, ho, hgap, hz⟩ := accumulation_ok ag ms hs out hrun
  obtain ⟨f2, V', hf2, hV', ho', hgap', hz'⟩ := accumulation_ok ag ms' hs out' hrun'
  rw [hf] at hf1; injection hf1 with hf1; subst hf1
  rw [hf'] at hf2; injection hf2 with hf2; subst hf2
  have hmem := (mem_range_iff hs).2 ht
  rw [ho, ho', ← accKey_eq, ← accKey_eq]
  rw [get?_map_key (g := fun t => accOut ag (V t)
      (if t - ag.aggrStep = 0 ∧ ag.forceZero = true then Arr.zeros else V (t - ag.aggrStep))) hmem,
    get?_map_key (g := fun t => accOut ag (V' t)
      (if t - ag.aggrStep = 0 ∧ ag.forceZero = true then Arr.zeros else V' (t - ag.aggrStep))) hmem]
  have hcase : ∀ x, AgreeAt ms ms' x → Avail ms x → V x = V' x := by
    intro x hx ha
    obtain ⟨a, hfa⟩ := Option.isSome_iff_exists.1 ((avail_iff _ _).1 ha)
    rw [hV x a hfa, hV' x a (hx.1 ▸ hfa)]
  have hiff : ∀ x, AgreeAt ms ms' x → (Avail ms x ↔ Avail ms' x) := by
    intro x hx; rw [avail_iff, avail_iff, hx.1]
  have hcur : V t = V' t := by
    by_cases ha : Avail ms t
    · exact hcase t h1 ha
    · have ha' : ¬ Avail ms' t := fun h => ha ((hiff t h1).2 h)
      obtain ⟨u, hu, hul⟩ := hlow
      obtain ⟨u', hu', hul'⟩ := hlow'
      refine lin_agree h1 (hgap t hmem ha ⟨u, hu, ?_⟩) (hgap' t hmem ha' ⟨u', hu', ?_⟩)
      · rcases hul with h | ⟨_, h⟩
        · omega
        · exact lt_of_le_of_ne h (by rintro rfl; exact ha hu)
      · rcases hul' with h | ⟨_, h⟩
        · omega
        · exact lt_of_le_of_ne h (by rintro rfl; exact ha' hu')
  have hprev : V (t - ag.aggrStep) = V' (t - ag.aggrStep) := by
    by_cases ha : Avail ms (t - ag.aggrStep)
    · exact hcase _ h2 ha
    · have ha' : ¬ Avail ms' (t - ag.aggrStep) := fun h => ha ((hiff _ h2).2 h)
      by_cases hin : t - ag.aggrStep ∈ rangeList ag.accStart (ag.end_ + 1) ag.aggrStep
      · obtain ⟨u, hu, hul⟩ := hlow
        obtain ⟨u', hu', hul'⟩ := hlow'
        have hpos : 0 < t - ag.aggrStep := by
          obtain ⟨k, hk, -⟩ := (mem_rangeList hs).1 hin
          have : (0 : Int) ≤ k * ag.aggrStep := Int.mul_nonneg (by omega) (by omega)
          rw [accStart_eq] at hk
          omega
        refine lin_agree h2 (hgap _ hin ha ⟨u, hu, ?_⟩) (hgap' _ hin ha' ⟨u', hu', ?_⟩)
        · rcases hul with h | ⟨h, -⟩
          · exact lt_of_le_of_ne h (by rintro rfl; exact ha hu)
          · omega
        · rcases hul' with h | ⟨h, -⟩
          · exact lt_of_le_of_ne h (by rintro rfl; exact ha' hu')
          · omega
      · -- `t` is the first interval end
        obtain ⟨k, hk, hle⟩ := ht
        have hk0 : k = 0 := by
          by_contra hk0
          apply hin
          refine (mem_rangeList hs).2 ⟨k - 1, ?_, by omega⟩
          rw [accStart_eq]
          push_cast [show 1 ≤ k by omega]; linarith
        subst hk0
        have hts : t = firstEnd ag.start ag.aggrStep := by simpa using hk
        have hhead : (rangeList ag.accStart (ag.end_ + 1) ag.aggrStep).head? = some t := by
          rw [accStart_eq, ← hts, rangeList_cons hs (by omega)]; rfl
        by_cases h0 : t - ag.aggrStep = 0
        · rw [h0] at ha ha' ⊢
          rw [(hz t hhead).2 h0 ha, (hz' t hhead).2 h0 ha']
        · have hpos : 0 < t - ag.aggrStep := by omega
          obtain ⟨u, hu, hul⟩ := hlow
          obtain ⟨u', hu', hul'⟩ := hlow'
          refine lin_agree h2 ((hz t hhead).1 hpos ha ⟨u, hu, ?_⟩) ((hz' t hhead).1 hpos ha' ⟨u', hu', ?_⟩)
          · rcases hul with h | ⟨h, -⟩
            · exact lt_of_le_of_ne h (by rintro rfl; exact ha hu)
            · omega
          · rcases hul' with h | ⟨h, -⟩
            · exact lt_of_le_of_ne h (by rintro rfl; exact ha' hu')
            · omega
  rw [hcur, hprev]

/-- Non-vacuity of C16: two inputs that differ only at 18 agree at 6 and 12 and give the same map for (6,12]. -/
example : (Demo.acc 12 12 6).doManipulation Demo.ms4 =
    (Demo.acc 12 12 6).doManipulation
      [Demo.msg 6 (Demo.f 2), Demo.msg 0 (Demo.f 1), Demo.msg 18 (Demo.f 77), Demo.msg 12 (Demo.f 5)] := by
  decide +kernel

/-- **C16d.** A half-weight average depends only on the fields at the hours of its own closed interval. -/
theorem C16_half_local (ag : Aggregator) (ms ms' : Messages n) (out out' : Dict Step (Arr n))
    (htype : ag.aggrType = "average") (hs : 0 < ag.aggrStep) (h2 : ag.secondTRes = false)
    (hh : ag.halfweights = true)
    (hrun : ag.doManipulation ms = .ok out) (hrun' : ag.doManipulation ms' = .ok out')
    (first first' : Step × Arr n) (hf : ms.head? = some first) (hf' : ms'.head? = some first')
    (s : Int) (hsr : AvgStart ag.start ag.end_ ag.aggrStep s)
    (hagree : ∀ h, s ≤ h → h ≤ s + ag.aggrStep → fieldAt ms h = fieldAt ms' h) :
    Dict.get? out (avgKey ag.aggrStep first.1.resolution first.1.level s)
      = Dict.get? out' (avgKey ag.aggrStep first'.1.resolution first'.1.level s) := by
  rw [doManipulation_avg ag _ htype] at hrun hrun'
  obtain ⟨-, f1, V, hf1, hV, ho⟩ := average_ok ag ms hs out hrun
  obtain ⟨-, f2, V', hf2, hV', ho'⟩ := average_ok ag ms' hs out' hrun'
  rw [hf] at hf1; injection hf1 with hf1; subst hf1
  rw [hf'] at hf2; injection hf2 with hf2; subst hf2
  have hmem := (avgStart_mem hs h2 s).1 hsr
  rw [ho, ho', get?_of_range (avgKey_inj _ _ _) hmem, get?_of_range (avgKey_inj _ _ _) hmem]
  have hin : ∀ h ∈ rangeList s (s + ag.aggrStep + 1) 1, fieldAt ms h = fieldAt ms' h := by
    intro h hh'
    obtain ⟨k, hk, hlt⟩ := (mem_rangeList (by omega)).1 hh'
    exact hagree h (by omega) (by omega)
  have hav : ∀ h ∈ rangeList s (s + ag.aggrStep + 1) 1,
      (h ∈ Dict.keys (vOrd ms) ↔ h ∈ Dict.keys (vOrd ms')) := by
    intro h hh'
    rw [mem_keys_vOrd, mem_keys_vOrd, avail_iff, avail_iff, hin h hh']
  have hfold : ∀ (d1 d2 : Num) (l : List Int), (∀ h ∈ l, h ∈ rangeList s (s + ag.aggrStep + 1) 1) →
      ∀ acc, l.foldlM (halfHour (vOrd ms) s (s + ag.aggrStep + 1) d1 d2) acc
        = l.foldlM (halfHour (vOrd ms') s (s + ag.aggrStep + 1) d1 d2) acc := by
    intro d1 d2 l
    induction l with
    | nil => intro _ acc; rfl
    | cons x l ih =>
      intro hl acc
      have hx := hl x List.mem_cons_self
      have e : halfHour (vOrd ms) s (s + ag.aggrStep + 1) d1 d2 acc x
          = halfHour (vOrd ms') s (s + ag.aggrStep + 1) d1 d2 acc x := by
        unfold halfHour Dict.getE
        rw [get?_vOrd, get?_vOrd, hin x hx]
        by_cases hk : x ∈ Dict.keys (vOrd ms)
        · rw [if_pos hk, if_pos ((hav x hx).1 hk)]
        · rw [if_neg hk, if_neg (fun hc => hk ((hav x hx).2 hc))]
      rw [List.foldlM_cons, List.foldlM_cons, e]
      congr 1
      funext a
      exact ih (fun h hm => hl h (List.mem_cons_of_mem _ hm)) a
  have hval : avgVal ag (vOrd ms) s = avgVal ag (vOrd ms') s := by
    have hfil : (rangeList s (s + ag.aggrStep + 1) 1).filter (· ∈ Dict.keys (vOrd ms))
        = (rangeList s (s + ag.aggrStep + 1) 1).filter (· ∈ Dict.keys (vOrd ms')) := by
      apply List.filter_congr
      intro h hm
      rw [decide_eq_decide]
      exact hav h hm
    unfold avgVal avgSums
    simp only [hh, if_true]
    rw [pyRange_pos (by omega)]
    dsimp only [bind, Except.bind]
    rw [hfil, hfold _ _ _ (fun _ hm => hm)]
  rw [hV s hmem, hV' s hmem] at hval
  injection hval with hval
  rw [hval]

/-- **C16 is violated** by accumulations that begin before the first message: the field before the first message is
extrapolated from the first and the *last* one, so the map of (12,18] changes with the field at 24. -/
theorem C16_far_field_used : ∃ (ag : Aggregator) (ms ms' : Messages 1) (m m' : Arr 1),
    ag.aggrType = "accumulation" ∧ (∀ t, t ≤ 18 → fieldAt ms t = fieldAt ms' t) ∧ Avail ms 18 ∧ Avail ms' 18 ∧
    (∃ z, ag.doManipulation ms = .ok [z, (⟨12, 18, 640, 6, 0⟩, m)]) ∧
    (∃ z, ag.doManipulation ms' = .ok [z, (⟨12, 18, 640, 6, 0⟩, m')]) ∧ m.data 0 ≠ m'.data 0 := by
  refine ⟨Demo.acc 12 18 6, [Demo.msg 18 (Demo.f 3), Demo.msg 24 (Demo.f 5)],
    [Demo.msg 18 (Demo.f 3), Demo.msg 24 (Demo.f 7)], ⟨fun _ => .fin 8, some fun _ => false⟩,
    ⟨fun _ => .fin 16, some fun _ => false⟩, rfl, ?_, by decide, by decide,
    ⟨(⟨6, 12, 640, 6, 0⟩, ⟨fun _ => .fin 0, some fun _ => false⟩), by decide +kernel⟩,
    ⟨(⟨6, 12, 640, 6, 0⟩, ⟨fun _ => .fin 0, some fun _ => false⟩), by decide +kernel⟩, by decide⟩
  intro t ht
  have h24 : ¬ (24 : Int) = t := by omega
  unfold fieldAt Demo.msg
  simp only [List.filter_cons, List.filter_nil]
  by_cases h18 : (18 : Int) = t
  · simp [h18, h24]
  · simp [h18, h24]

end PyG2P
