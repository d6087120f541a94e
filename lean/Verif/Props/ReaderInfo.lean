import Verif.Props.ReaderSelect

/-! # Time axis and resolution groups: C28, C29 -/

namespace PyG2P
open PyG2P.Reader
variable {α : Type}

/-! ## C28 -/

namespace Spec
/-- The time axis reported for messages with the given (start, end) steps. `E` and `S` are their end and
start steps in increasing order. -/
structure TimeAxis (ms : List (Int × Int)) (E S : List Int) (i : StepsInfo) : Prop where
  start_mem : ∃ p ∈ ms, p.1 = i.start
  start_min : ∀ p ∈ ms, i.start ≤ p.1
  end_mem : ∃ p ∈ ms, p.2 = i.end_
  end_max : ∀ p ∈ ms, p.2 ≤ i.end_
  /-- one message: its length -/
  step_one : ∀ e s, E = [e] → S = [s] → i.step = e - s
  /-- several messages: the first difference of end steps -/
  step_more : ∀ e0 e1, E[0]? = some e0 → E[1]? = some e1 → i.step = e1 - e0
  /-- all differences equal: no second step -/
  regular : (∀ (k : Nat) a b, E[k]? = some a → E[k + 1]? = some b → b - a = i.step) ∨ E.length = 1 →
    i.step2 = -1 ∧ i.changeAt = []
  /-- otherwise the first different one, at the message where it occurs -/
  changes : ∀ (k : Nat) a b s, E[k]? = some a → E[k + 1]? = some b → S[k + 1]? = some s → b - a ≠ i.step →
    (∀ (j : Nat) c d, j < k → E[j]? = some c → E[j + 1]? = some d → d - c = i.step) →
    i.step2 = b - a ∧ i.step2 ≠ -1 ∧ i.changeAt = Str.ofInt s ++ '-' :: Str.ofInt b
end Spec

theorem findChange_done (step : Int) (ends starts : List Int) (is : List Nat) (s : Int × Str)
    (h : s.1 ≠ -1) : findChange step ends starts is s = s := by
  induction is with
  | nil => rfl
  | cons i is ih =>
    unfold findChange
    dsimp only
    rw [if_neg (fun hc => h hc.1)]
    exact ih

theorem findChange_same (step : Int) (ends starts : List Int) (is : List Nat) (rest : List Nat) (s : Int × Str)
    (h : ∀ i ∈ is, ends.getD i 0 - ends.getD (i - 1) 0 = step) :
    findChange step ends starts (is ++ rest) s = findChange step ends starts rest s := by
  induction is with
  | nil => rfl
  | cons i is ih =>
    rw [List.cons_append]
    conv_lhs => unfold findChange
    dsimp only
    rw [if_neg (fun hc => hc.2 (h i (by simp)))]
    exact ih (fun j hj => h j (by simp [hj]))

theorem range_filter_split (n k : Nat) (h2 : 2 ≤ k) (hk : k < n) :
    ∃ a b, (List.range n).filter (2 ≤ ·) = a ++ k :: b ∧ ∀ i ∈ a, 2 ≤ i ∧ i < k := by
  have hmem : k ∈ (List.range n).filter (2 ≤ ·) := by simp [hk, h2]
  obtain ⟨a, b, he⟩ := List.append_of_mem hmem
  refine ⟨a, b, he, ?_⟩
  intro i hi
  constructor
  · have : i ∈ (List.range n).filter (2 ≤ ·) := by rw [he]; simp [hi]
    simpa using (List.mem_filter.1 this).2
  · have hp : ((List.range n).filter (2 ≤ ·)).Pairwise (· < ·) := List.pairwise_lt_range.filter _
    rw [he, List.pairwise_append] at hp
    exact hp.2.2 i hi k (by simp)

theorem foldl_min_spec (ss : List Int) (s : Int) :
    ss.foldl min s ∈ s :: ss ∧ ∀ x ∈ s :: ss, ss.foldl min s ≤ x := by
  induction ss generalizing s with
  | nil => simp
  | cons a ss ih =>
    rw [List.foldl_cons]
    obtain ⟨h1, h2⟩ := ih (min s a)
    constructor
    · rcases List.mem_cons.1 h1 with h | h
      · rw [h]
        rcases min_choice s a with h' | h' <;> rw [h'] <;> simp
      · simp [h]
    · intro x hx
      have h0 := h2 (min s a) (by simp)
      rcases List.mem_cons.1 hx with rfl | hx
      · exact h0.trans (min_le_left _ _)
      · rcases List.mem_cons.1 hx with rfl | hx
        · exact h0.trans (min_le_right _ _)
        · exact h2 x (by simp [hx])

theorem foldl_max_spec (ss : List Int) (s : Int) :
    ss.foldl max s ∈ s :: ss ∧ ∀ x ∈ s :: ss, x ≤ ss.foldl max s := by
  induction ss generalizing s with
  | nil => simp
  | cons a ss ih =>
    rw [List.foldl_cons]
    obtain ⟨h1, h2⟩ := ih (max s a)
    constructor
    · rcases List.mem_cons.1 h1 with h | h
      · rw [h]
        rcases max_choice s a with h' | h' <;> rw [h'] <;> simp
      · simp [h]
    · intro x hx
      have h0 := h2 (max s a) (by simp)
      rcases List.mem_cons.1 hx with rfl | hx
      · exact (le_max_left _ _).trans h0
      · rcases List.mem_cons.1 hx with rfl | hx
        · exact (le_max_right _ _).trans h0
        · exact h2 x (by simp [hx])

theorem sorted_unique {E : List Int} {l : List Int} (hp : E.Perm l) (hs : E.Pairwise (· ≤ ·)) :
    E = sortedBy id l := by
  refine List.Perm.eq_of_pairwise (le := (· ≤ ·)) ?_ hs (sortedBy_pairwise id l)
    (hp.trans (sortedBy_perm id l).symm)
  intro a b _ _ h1 h2
  exact le_antisymm h1 h2

/-- C28: the reported start, end, step, second step and change. -/
theorem C28_time_axis (ms : List (Int × Int)) (hne : ms ≠ []) (E S : List Int)
    (hE : E.Perm (ms.map (·.2))) (hEs : E.Pairwise (· ≤ ·))
    (hS : S.Perm (ms.map (·.1))) (hSs : S.Pairwise (· ≤ ·)) :
    ∃ i, findStartEnd ms = .ok i ∧ Spec.TimeAxis ms E S i := by
  cases ms with
  | nil => exact absurd rfl hne
  | cons p ms =>
    have hE' := sorted_unique hE hEs
    have hS' := sorted_unique hS hSs
    have hlE : E.length = ms.length + 1 := by rw [hE.length_eq]; simp
    have hlS : S.length = ms.length + 1 := by rw [hS.length_eq]; simp
    refine ⟨_, rfl, ?_⟩
    have hE2 : sortedBy id (p.2 :: ms.map (·.2)) = E := hE'.symm
    have hS2 : sortedBy id (p.1 :: ms.map (·.1)) = S := hS'.symm
    have hmin := foldl_min_spec (ms.map (·.1)) p.1
    have hmax := foldl_max_spec (ms.map (·.2)) p.2
    have hgetD : ∀ (k : Nat) a, E[k]? = some a → E.getD k 0 = a := by
      intro k a h; rw [List.getD_eq_getElem?_getD, h]; rfl
    have hgetDS : ∀ (k : Nat) a, S[k]? = some a → S.getD k 0 = a := by
      intro k a h; rw [List.getD_eq_getElem?_getD, h]; rfl
    have hget : ∀ k : Nat, k < E.length → E[k]? = some (E.getD k 0) := by
      intro k h; rw [List.getD_eq_getElem?_getD, List.getElem?_eq_getElem h]; rfl
    constructor
    · obtain ⟨q, hq, he⟩ : ∃ q ∈ p :: ms, q.1 = (ms.map (·.1)).foldl min p.1 := by
        have := hmin.1
        rw [← List.map_cons (f := fun x : Int × Int => x.1), List.mem_map] at this
        exact this
      exact ⟨q, hq, he⟩
    · intro q hq
      exact hmin.2 q.1 (by rw [← List.map_cons (f := fun x : Int × Int => x.1)]; exact List.mem_map_of_mem hq)
    · obtain ⟨q, hq, he⟩ : ∃ q ∈ p :: ms, q.2 = (ms.map (·.2)).foldl max p.2 := by
        have := hmax.1
        rw [← List.map_cons (f := fun x : Int × Int => x.2), List.mem_map] at this
        exact this
      exact ⟨q, hq, he⟩
    · intro q hq
      exact hmax.2 q.2 (by rw [← List.map_cons (f := fun x : Int × Int => x.2)]; exact List.mem_map_of_mem hq)
    · intro e s he hs
      dsimp only
      rw [hE2, hS2, he, hs]
      rfl
    · intro e0 e1 h0 h1
      dsimp only
      rw [hE2, hS2]
      have : 1 < E.length := by
        by_contra h; rw [List.getElem?_eq_none (by omega)] at h1; cases h1
      rw [if_pos this, hgetD _ _ h0, hgetD _ _ h1]
    · intro h
      dsimp only at h ⊢
      rw [hE2, hS2] at h ⊢
      by_cases hl : 1 < E.length
      · rw [if_pos hl] at h
        rw [if_pos hl, if_pos hl]
        have h := h.resolve_right (by omega)
        have := findChange_same (E.getD 1 0 - E.getD 0 0) E S ((List.range E.length).filter (2 ≤ ·)) [] (-1, [])
          (by
            intro i hi
            simp only [List.mem_filter, List.mem_range, decide_eq_true_eq] at hi
            have h1 := hget (i - 1) (by omega)
            have h2 := hget i (by omega)
            refine h (i - 1) _ _ h1 ?_
            rw [show i - 1 + 1 = i by omega]; exact h2)
        rw [List.append_nil] at this
        rw [this]
        exact ⟨rfl, rfl⟩
      · rw [if_neg hl]; exact ⟨rfl, rfl⟩
    · intro k a b s ha hb hs hne' hbefore
      dsimp only at hne' hbefore ⊢
      rw [hE2, hS2] at hne' hbefore ⊢
      have hkl : k + 1 < E.length := by
        by_contra h; rw [List.getElem?_eq_none (by omega)] at hb; cases hb
      have hl : 1 < E.length := by omega
      rw [if_pos hl] at hne' hbefore
      rw [if_pos hl, if_pos hl]
      have hk0 : k ≠ 0 := by
        rintro rfl
        rw [hgetD _ _ ha, hgetD _ _ hb] at hne'
        exact hne' rfl
      obtain ⟨x, y, hxy, hx⟩ := range_filter_split E.length (k + 1) (by omega) hkl
      rw [hxy, findChange_same _ _ _ x _ _ (by
        intro i hi
        obtain ⟨h1, h2⟩ := hx i hi
        refine hbefore (i - 1) _ _ (by omega) (hget _ (by omega)) ?_
        rw [show i - 1 + 1 = i by omega]; exact hget _ (by omega))]
      have hab : a ≤ b := by
        have h1 : E[k]'(by omega) = a := by
          rw [List.getElem?_eq_getElem (by omega)] at ha; exact Option.some.inj ha
        have h2 : E[k + 1]'(by omega) = b := by
          rw [List.getElem?_eq_getElem (by omega)] at hb; exact Option.some.inj hb
        rw [← h1, ← h2]
        exact (List.pairwise_iff_getElem.1 hEs) k (k + 1) (by omega) (by omega) (by omega)
      unfold findChange
      dsimp only
      rw [show k + 1 - 1 = k by omega, hgetD _ _ ha, hgetD _ _ hb, hgetDS _ _ hs]
      rw [if_pos ⟨rfl, hne'⟩, findChange_done _ _ _ _ _ (by dsimp only; omega)]
      exact ⟨rfl, by dsimp only; omega, rfl⟩

/-- C28: what the information request reports is the time axis of the messages found. -/
theorem C28_info (file : List (GMsg α)) (r r1 : Reader) (kw : Kwargs) (g : List (Nat × Nat))
    (hg : getGids file r kw = (.ok g, r1)) (hne : g ≠ []) :
    (gribInfo file r kw).1 = findStartEnd (stepsOf file g) := by
  unfold gribInfo
  rw [hg]
  dsimp only
  rw [if_pos (List.length_pos_iff.2 hne)]
  cases findStartEnd (stepsOf file g) <;> rfl

example : findStartEnd [(12, 18), (0, 6), (6, 12), (18, 30), (30, 42)] =
    .ok ⟨0, 42, 6, 12, "18-30".toList⟩ := by decide +kernel

example : ∃ i, findStartEnd [(12, 18), (0, 6), (6, 12), (18, 30), (30, 42)] = .ok i ∧
    Spec.TimeAxis [(12, 18), (0, 6), (6, 12), (18, 30), (30, 42)] [6, 12, 18, 30, 42] [0, 6, 12, 18, 30] i :=
  C28_time_axis _ (by simp) _ _ (by decide) (by decide) (by decide) (by decide)

/-! ## C29 -/

namespace Spec
/-- `start-end`, the text compared with the place where the step changes. -/
def stepText (m : GMsg α) : Str := Str.ofInt m.startStep ++ '-' :: Str.ofInt m.endStep

/-- The step key of message `m` when the messages `before` come first: the input step is the second one
from the message at which it changes on. -/
def stepKey (step step2 : Int) (changeAt : Str) (before : List (GMsg α)) (m : GMsg α) : Step :=
  ⟨m.startStep, m.endStep, m.nj, if (before ++ [m]).any (fun x => decide (stepText x = changeAt)) then step2 else step,
    m.level⟩

/-- Two messages differ in start step, end step, number of parallels or level. -/
def Differ (m m' : GMsg α) : Prop :=
  ¬ (m.startStep = m'.startStep ∧ m.endStep = m'.endStep ∧ m.nj = m'.nj ∧ m.level = m'.level)
end Spec

/-- Loop invariant of the grouping. -/
theorem selLoop_inv (nj0 sg sg2 : Int) (ch : Str) (ext : Option Nat) (ms : List (Nat × GMsg α))
    (hord : ms.Pairwise fun x y => x.2.nj ≠ nj0 → y.2.nj ≠ nj0)
    (hdiff : ms.Pairwise fun x y => Spec.Differ x.2 y.2) :
    let st := ms.foldl (selStep nj0 sg2 ch) ⟨sg, false, ext, [], []⟩
    (st.inputStep = if (ms.map (·.2)).any (fun x => decide (Spec.stepText x = ch)) then sg2 else sg) ∧
    (st.grid2 = true ↔ ∃ p ∈ ms, p.2.nj ≠ nj0) ∧
    (∀ k ∈ Dict.keys st.first, k.resolution = nj0 ∧ ∃ p ∈ ms, p.2.startStep = k.startStep ∧
      p.2.endStep = k.endStep ∧ p.2.nj = k.resolution ∧ p.2.level = k.level) ∧
    (∀ k ∈ Dict.keys st.second, k.resolution ≠ nj0 ∧ ∃ p ∈ ms, p.2.startStep = k.startStep ∧
      p.2.endStep = k.endStep ∧ p.2.nj = k.resolution ∧ p.2.level = k.level) ∧
    st.first.length + st.second.length = ms.length ∧
    (∀ a p b, ms = a ++ p :: b →
      Dict.get? (if p.2.nj = nj0 then st.first else st.second)
        (Spec.stepKey sg sg2 ch (a.map (·.2)) p.2) = some p.2.values) := by
  induction ms using List.reverseRecOn with
  | nil => exact ⟨rfl, by simp, by simp, by simp, rfl, by simp⟩
  | append_singleton ms q ih =>
    rw [List.pairwise_append] at hord hdiff
    obtain ⟨i1, i2, i3, i4, i5, i6⟩ := ih hord.1 hdiff.1
    rw [List.foldl_append, List.foldl_cons, List.foldl_nil]
    set st := ms.foldl (selStep nj0 sg2 ch) ⟨sg, false, ext, [], []⟩ with hst
    intro st'
    have hin : (if Str.ofInt q.2.startStep ++ '-' :: Str.ofInt q.2.endStep = ch then sg2 else st.inputStep) =
        if ((ms ++ [q]).map (·.2)).any (fun x => decide (Spec.stepText x = ch)) then sg2 else sg := by
      rw [i1]
      have ht : Str.ofInt q.2.startStep ++ '-' :: Str.ofInt q.2.endStep = Spec.stepText q.2 := rfl
      rw [ht, List.map_append, List.any_append]
      simp only [List.map_cons, List.map_nil, List.any_cons, List.any_nil, Bool.or_false]
      by_cases h : Spec.stepText q.2 = ch
      · rw [if_pos h, decide_eq_true h, Bool.or_true, if_pos rfl]
      · rw [if_neg h, decide_eq_false h, Bool.or_false]
    have hnotin : ∀ (d : Dict Step α) (v : Int),
        (∀ k ∈ Dict.keys d, ∃ p ∈ ms, p.2.startStep = k.startStep ∧
          p.2.endStep = k.endStep ∧ p.2.nj = k.resolution ∧ p.2.level = k.level) →
        (⟨q.2.startStep, q.2.endStep, q.2.nj, v, q.2.level⟩ : Step) ∉ Dict.keys d := by
      intro d v h hm
      obtain ⟨p, hp, h1, h2, h3, h4⟩ := h _ hm
      exact hdiff.2.2 p hp q (by simp) ⟨h1, h2, h3, h4⟩
    have hf := hnotin st.first
      (if ((ms ++ [q]).map (·.2)).any (fun x => decide (Spec.stepText x = ch)) then sg2 else sg)
      (fun k hk => (i3 k hk).2)
    have hs := hnotin st.second
      (if ((ms ++ [q]).map (·.2)).any (fun x => decide (Spec.stepText x = ch)) then sg2 else sg)
      (fun k hk => (i4 k hk).2)
    -- last position or an earlier one
    have hsplit : ∀ a p b, ms ++ [q] = a ++ p :: b → (a = ms ∧ p = q ∧ b = []) ∨ ∃ b', ms = a ++ p :: b' := by
      intro a p b h
      rcases List.eq_nil_or_concat b with rfl | ⟨b', z, rfl⟩
      · have := List.append_inj' h rfl
        exact Or.inl ⟨this.1.symm, by simpa using this.2.symm, rfl⟩
      · right
        refine ⟨b', ?_⟩
        have h' : ms ++ [q] = (a ++ p :: b') ++ [z] := by rw [h]; simp
        exact (List.append_inj' h' rfl).1
    by_cases hq : q.2.nj = nj0
    · have hnone : ∀ p ∈ ms, p.2.nj = nj0 := by
        intro p hp
        by_contra h
        exact hord.2.2 p hp q (by simp) h hq
      have hg : st.grid2 = false := by
        cases hb : st.grid2 with
        | false => rfl
        | true => obtain ⟨p, hp, h⟩ := i2.1 hb; exact absurd (hnone p hp) h
      have hst' : st' = { st with
          inputStep := if ((ms ++ [q]).map (·.2)).any (fun x => decide (Spec.stepText x = ch)) then sg2 else sg
          first := st.first ++ [(⟨q.2.startStep, q.2.endStep, q.2.nj,
            if ((ms ++ [q]).map (·.2)).any (fun x => decide (Spec.stepText x = ch)) then sg2 else sg,
            q.2.level⟩, q.2.values)] } := by
        show selStep nj0 sg2 ch st q = _
        unfold selStep
        dsimp only
        rw [hin, if_neg (not_not.2 hq), if_neg (not_not.2 hq), if_pos hg, Dict.set_of_not_mem hf]
      rw [hst']
      refine ⟨rfl, ?_, ?_, ?_, ?_, ?_⟩
      · rw [show (({ st with
            inputStep := if ((ms ++ [q]).map (·.2)).any (fun x => decide (Spec.stepText x = ch)) then sg2 else sg
            first := st.first ++ [(⟨q.2.startStep, q.2.endStep, q.2.nj,
              if ((ms ++ [q]).map (·.2)).any (fun x => decide (Spec.stepText x = ch)) then sg2 else sg,
              q.2.level⟩, q.2.values)] } : SelSt α).grid2 = true ↔ _) from i2]
        constructor
        · rintro ⟨p, hp, h⟩; exact ⟨p, by simp [hp], h⟩
        · rintro ⟨p, hp, h⟩
          rcases List.mem_append.1 hp with hp | hp
          · exact ⟨p, hp, h⟩
          · rw [List.mem_singleton.1 hp] at h; exact absurd hq h
      · intro k hk
        dsimp only at hk
        rw [Dict.keys, List.map_append, List.mem_append] at hk
        rcases hk with hk | hk
        · obtain ⟨h1, p, hp, h2⟩ := i3 k hk
          exact ⟨h1, p, by simp [hp], h2⟩
        · rw [List.map_cons, List.map_nil, List.mem_singleton] at hk
          subst hk
          exact ⟨hq, q, by simp, rfl, rfl, rfl, rfl⟩
      · intro k hk
        obtain ⟨h1, p, hp, h2⟩ := i4 k hk
        exact ⟨h1, p, by simp [hp], h2⟩
      · dsimp only; rw [List.length_append, List.length_append]
        simp only [List.length_cons, List.length_nil]; omega
      · intro a p b h
        dsimp only
        rcases hsplit a p b h with ⟨rfl, rfl, rfl⟩ | ⟨b', hb'⟩
        · have : Spec.stepKey sg sg2 ch (a.map (·.2)) p.2 = ⟨p.2.startStep, p.2.endStep, p.2.nj,
              if ((a ++ [p]).map (·.2)).any (fun x => decide (Spec.stepText x = ch)) then sg2 else sg,
              p.2.level⟩ := by unfold Spec.stepKey; rw [List.map_append]; rfl
          rw [if_pos hq, Dict.get?_append, this, Dict.get?_eq_none_iff.2 hf, Dict.get?_cons, if_pos rfl]
          rfl
        · have := i6 a p b' hb'
          have hp := hnone p (by rw [hb']; simp)
          rw [if_pos hp] at this ⊢
          rw [Dict.get?_append, this]; rfl
    · have hst' : st' = { st with
          inputStep := if ((ms ++ [q]).map (·.2)).any (fun x => decide (Spec.stepText x = ch)) then sg2 else sg
          grid2 := true
          ext := some q.1
          second := st.second ++ [(⟨q.2.startStep, q.2.endStep, q.2.nj,
            if ((ms ++ [q]).map (·.2)).any (fun x => decide (Spec.stepText x = ch)) then sg2 else sg,
            q.2.level⟩, q.2.values)] } := by
        show selStep nj0 sg2 ch st q = _
        unfold selStep
        dsimp only
        rw [hin, if_pos hq, if_pos hq, if_neg (by simp), if_pos hq, Dict.set_of_not_mem hs]
      rw [hst']
      refine ⟨rfl, ?_, ?_, ?_, ?_, ?_⟩
      · dsimp only
        exact ⟨fun _ => ⟨q, by simp, hq⟩, fun _ => rfl⟩
      · intro k hk
        obtain ⟨h1, p, hp, h2⟩ := i3 k hk
        exact ⟨h1, p, by simp [hp], h2⟩
      · intro k hk
        dsimp only at hk
        rw [Dict.keys, List.map_append, List.mem_append] at hk
        rcases hk with hk | hk
        · obtain ⟨h1, p, hp, h2⟩ := i4 k hk
          exact ⟨h1, p, by simp [hp], h2⟩
        · rw [List.map_cons, List.map_nil, List.mem_singleton] at hk
          subst hk
          exact ⟨hq, q, by simp, rfl, rfl, rfl, rfl⟩
      · dsimp only; rw [List.length_append, List.length_append]
        simp only [List.length_cons, List.length_nil]; omega
      · intro a p b h
        dsimp only
        rcases hsplit a p b h with ⟨rfl, rfl, rfl⟩ | ⟨b', hb'⟩
        · have : Spec.stepKey sg sg2 ch (a.map (·.2)) p.2 = ⟨p.2.startStep, p.2.endStep, p.2.nj,
              if ((a ++ [p]).map (·.2)).any (fun x => decide (Spec.stepText x = ch)) then sg2 else sg,
              p.2.level⟩ := by unfold Spec.stepKey; rw [List.map_append]; rfl
          rw [if_neg hq, Dict.get?_append, this, Dict.get?_eq_none_iff.2 hs, Dict.get?_cons, if_pos rfl]
          rfl
        · have := i6 a p b' hb'
          by_cases hp : p.2.nj = nj0
          · rw [if_pos hp] at this ⊢; exact this
          · rw [if_neg hp] at this ⊢
            rw [Dict.get?_append, this]; rfl

/-- C29, for files in which the messages of the first resolution come before the others and no two
messages share start step, end step, resolution and level: every message is in the group of its resolution
under its own key, and the groups contain nothing else. -/
theorem C29_grouping_partial (sg sg2 : Int) (ch : Str) (ext : Option Nat) (p0 : Nat × GMsg α)
    (rest : List (Nat × GMsg α))
    (hord : (p0 :: rest).Pairwise fun x y => x.2.nj ≠ p0.2.nj → y.2.nj ≠ p0.2.nj)
    (hdiff : (p0 :: rest).Pairwise fun x y => Spec.Differ x.2 y.2) :
    let s := (group sg sg2 ch ext (p0 :: rest)).1
    (∀ a p b, p0 :: rest = a ++ p :: b →
      Dict.get? (if p.2.nj = p0.2.nj then s.first else s.second)
        (Spec.stepKey sg sg2 ch (a.map (·.2)) p.2) = some p.2.values) ∧
    s.first.length + s.second.length = (p0 :: rest).length ∧
    (∀ k ∈ Dict.keys s.first, k.resolution = p0.2.nj) ∧
    (∀ k ∈ Dict.keys s.second, k.resolution ≠ p0.2.nj) ∧
    (s.change = none ↔ s.second = []) := by
  intro s
  obtain ⟨-, h2, h3, h4, h5, h6⟩ := selLoop_inv p0.2.nj sg sg2 ch ext (p0 :: rest) hord hdiff
  refine ⟨h6, h5, fun k hk => (h3 k hk).1, fun k hk => (h4 k hk).1, ?_⟩
  change (if _ then minKey _ else none) = none ↔ _
  by_cases hg : (List.foldl (selStep p0.2.nj sg2 ch) ⟨sg, false, ext, [], []⟩ (p0 :: rest)).grid2 = true
  · rw [if_pos hg]
    obtain ⟨p, hp, hne⟩ := h2.1 hg
    obtain ⟨a, b, hab⟩ := List.append_of_mem hp
    have := h6 a p b hab
    rw [if_neg hne] at this
    have hnn : s.second ≠ [] := by
      intro h0
      have h1 : Dict.get? s.second (Spec.stepKey sg sg2 ch (a.map (·.2)) p.2) = some p.2.values := this
      rw [h0] at h1; cases h1
    refine ⟨fun h => ?_, fun h => absurd h hnn⟩
    exfalso
    apply hnn
    change s.second = []
    have h' : minKey (Dict.keys s.second) = none := h
    cases hs : s.second with
    | nil => rfl
    | cons x l => rw [hs] at h'; cases h'
  · rw [if_neg hg]
    refine ⟨fun _ => ?_, fun _ => rfl⟩
    cases hs : s.second with
    | nil => rfl
    | cons x l =>
      exfalso
      have hx : x.1 ∈ Dict.keys s.second := by rw [hs]; simp [Dict.keys]
      obtain ⟨h7, p, hp, -, -, h8, -⟩ := h4 x.1 hx
      exact hg (h2.2 ⟨p, hp, by rw [h8]; exact h7⟩)

/-- C29 is violated when a message of the first resolution follows one of the second: it is dropped. -/
theorem C29_violated :
    let s := (group 6 (-1) [] none
      [(0, exMsg "2t" 0 6), (1, exMsg "2t" 6 12 5), (2, exMsg "2t" 12 18)]).1
    s.first.length + s.second.length = 2 ∧ (∀ k ∈ Dict.keys s.first, k.startStep ≠ 12) ∧
      ∀ k ∈ Dict.keys s.second, k.startStep ≠ 12 := by decide +kernel

/-- C29 is violated when two messages differ only in a key outside the step key (for instance the member
of an ensemble): the later one replaces the earlier. -/
theorem C29_overwritten (m m' : GMsg α) (h : m.startStep = m'.startStep ∧ m.endStep = m'.endStep ∧
    m.nj = m'.nj ∧ m.level = m'.level) (sg sg2 : Int) :
    ((group sg sg2 [] none [(0, m), (1, m')]).1).first =
      [(⟨m.startStep, m.endStep, m.nj, sg, m.level⟩, m'.values)] := by
  obtain ⟨h1, h2, h3, h4⟩ := h
  have ht : ∀ a b : Int, Str.ofInt a ++ '-' :: Str.ofInt b ≠ [] := by intro a b; simp
  simp [group, selStep, h1, h2, h3, h4, ht, Dict.set]

example : let ms := [(0, exMsg "2t" 0 6), (1, exMsg "2t" 6 12), (2, exMsg "2t" 12 24 5)]
    (ms.Pairwise fun x y => x.2.nj ≠ 10 → y.2.nj ≠ 10) ∧
    (ms.Pairwise fun x y => Spec.Differ x.2 y.2) ∧
    (group 6 12 "12-24".toList none ms).1.second = [(⟨12, 24, 5, 12, 0⟩, 24)] ∧
    (group 6 12 "12-24".toList none ms).1.first = [(⟨0, 6, 10, 6, 0⟩, 6), (⟨6, 12, 10, 6, 0⟩, 12)] := by
  refine ⟨by decide, ?_, by decide +kernel, by decide +kernel⟩
  simp [Spec.Differ, exMsg]

end PyG2P
