import Verif.Props.ScipyWeights
import Verif.Props.ScipyNear
import Mathlib.Algebra.Order.BigOperators.Group.Finset
import Mathlib.Algebra.BigOperators.Field

/-! # C70, C71, C83, C84: directional factors and final weights of the ADW and CDD methods -/

namespace PyG2P
open ScipyLib

/-! ## C70: broadcasting and loop -/

/-- Removing the diagonal by striding gives, in row `i`, the elements before and after the diagonal. -/
theorem dropDiag_eq {α : Type} (k : Nat) (arr : Nat → Nat → Nat → α) (a i j : Nat) (hi : i < k) (hj : j < k - 1) :
    dropDiag k (flat3 k arr) a i j = arr a i (if j < i then j else j + 1) := by
  obtain ⟨m, rfl⟩ : ∃ m, k = m + 1 := ⟨k - 1, by omega⟩
  have hj : j < m := by omega
  unfold dropDiag flat3
  simp only [Nat.add_sub_cancel]
  have hm : 0 < m := by omega
  have hmm : 0 < m * (m + 1) := by positivity
  -- position within the reshaped array
  have hr : i * m + j < m * (m + 1) := by nlinarith
  have hp : a * ((m + 1) * m) + i * m + j = (i * m + j) + m * (m + 1) * a := by ring
  rw [hp, Nat.add_mul_div_left _ _ hmm, Nat.div_eq_of_lt hr, Nat.add_mul_mod_self_left, Nat.mod_eq_of_lt hr,
    Nat.zero_add]
  have hpm : (i * m + j + m * (m + 1) * a) % (m + 1) = (i * m + j) % (m + 1) := by
    have : m * (m + 1) * a = (m + 1) * (m * a) := by ring
    rw [this, Nat.add_mul_mod_self_left]
  rw [hpm]
  -- quotient and remainder by the row length
  have key : 1 + (a * ((m + 1) * (m + 1)) + (i * m + j) / (m + 1) * (m + 1 + 1) + (i * m + j) % (m + 1)) =
      (i * (m + 1) + if j < i then j else j + 1) + (m + 1) * (m + 1) * a := by
    have hdm := Nat.div_add_mod (i * m + j) (m + 1)
    by_cases h : j < i
    · rw [if_pos h]
      have hq : (i * m + j) / (m + 1) = i - 1 := by
        rw [Nat.div_eq_iff (by omega)]
        obtain ⟨i', rfl⟩ : ∃ i', i = i' + 1 := ⟨i - 1, by omega⟩
        simp only [Nat.add_sub_cancel]
        have e1 : (i' + 1) * m + j = i' * (m + 1) + (m + j - i') := by
          have : (i' + 1) * m + i' = i' * (m + 1) + m := by ring
          omega
        omega
      rw [hq] at hdm ⊢
      obtain ⟨i', rfl⟩ : ∃ i', i = i' + 1 := ⟨i - 1, by omega⟩
      simp only [Nat.add_sub_cancel] at hdm ⊢
      nlinarith
    · rw [if_neg h]
      have hq : (i * m + j) / (m + 1) = i := by
        rw [Nat.div_eq_iff (by omega)]
        have e1 : i * m + i = i * (m + 1) := by ring
        omega
      rw [hq] at hdm ⊢
      nlinarith
  rw [key]
  have hc : (if j < i then j else j + 1) < m + 1 := by split_ifs <;> omega
  generalize (if j < i then j else j + 1) = c at hc ⊢
  have hlt : i * (m + 1) + c < (m + 1) * (m + 1) := by nlinarith
  have hpos : 0 < (m + 1) * (m + 1) := by positivity
  rw [Nat.add_mul_div_left _ _ hpos, Nat.div_eq_of_lt hlt, Nat.add_mul_mod_self_left, Nat.mod_eq_of_lt hlt,
    Nat.zero_add]
  have h1 : (i * (m + 1) + c) / (m + 1) = i := by
    rw [Nat.mul_comm, Nat.mul_add_div (by omega), Nat.div_eq_of_lt hc, Nat.add_zero]
  have h2 : (i * (m + 1) + c + (m + 1) * (m + 1) * a) % (m + 1) = c := by
    have : i * (m + 1) + c + (m + 1) * (m + 1) * a = c + (m + 1) * (i + (m + 1) * a) := by ring
    rw [this, Nat.add_mul_mod_self_left, Nat.mod_eq_of_lt hc]
  rw [h1, h2]

theorem repeated_eq (n k : Nat) (s : Nat → Nat → ℝ) (a i j : Nat) (ha : a < n) (hi : i < k) :
    repeated n k s a i j = s a j := by
  unfold repeated
  dsimp only
  have h1 : ((j * n + a) * k + i) / k = j * n + a := by
    rw [Nat.mul_comm, Nat.mul_add_div (by omega), Nat.div_eq_of_lt hi, Nat.add_zero]
  rw [h1, Nat.mul_comm, Nat.mul_add_mod, Nat.mod_eq_of_lt ha, Nat.mul_add_div (by omega), Nat.div_eq_of_lt ha,
    Nat.add_zero]

theorem others_eq (k i : Nat) (hi : i < k) :
    List.range i ++ List.range' (i + 1) (k - (i + 1)) =
      (List.range (k - 1)).map fun j => if j < i then j else j + 1 := by
  apply List.ext_getElem?
  intro n
  rcases Nat.lt_or_ge n i with h | h
  · rw [List.getElem?_append_left (by simpa using h), List.getElem?_map, List.getElem?_range h,
      List.getElem?_range (by omega), Option.map_some, if_pos h]
  · rw [List.getElem?_append_right (by simpa using h), List.length_range, List.getElem?_map]
    rcases Nat.lt_or_ge n (k - 1) with h' | h'
    · rw [List.getElem?_range h', List.getElem?_range' (by omega), Option.map_some, if_neg (by omega)]
      congr 1; omega
    · rw [List.getElem?_eq_none (by simp; omega), List.getElem?_eq_none (by simp; omega)]; rfl

/-- **C70.** For any number of cells and neighbours, any positions and any distance weights, the broadcasting code and
the loop compute the same factor for every neighbour of every cell. -/
theorem broadcast_eq_loop (n k : Nat) (b : Nb) (a i : Nat) (ha : a < n) (hi : i < k) :
    directional true n k b a i = directional false n k b a i := by
  unfold directional
  simp only [if_true]
  rw [if_neg (by simp)]
  congr 1
  unfold dirBroadcast dirLoop
  dsimp only
  rw [others_eq k i hi, List.map_map]
  congr 1
  apply List.map_congr_left
  intro j hj
  have hj : j < k - 1 := List.mem_range.1 hj
  rw [dropDiag_eq k _ a i j hi hj, dropDiag_eq k _ a i j hi hj, repeated_eq n k _ a i _ ha hi]
  rfl

/-! ## C71: bounds -/

theorem cosTheta_bound {x y x' y' c : ℝ} (h : cosTheta x y x' y' = some c) : -1 ≤ c ∧ c ≤ 1 := by
  unfold cosTheta at h
  split_ifs at h with h0
  simp only [Option.some.injEq] at h
  subst h
  set D := Real.sqrt (x ^ 2 + y ^ 2) with hD
  set D' := Real.sqrt (x' ^ 2 + y' ^ 2) with hD'
  have hn : 0 ≤ D * D' := mul_nonneg (Real.sqrt_nonneg _) (Real.sqrt_nonneg _)
  have hp : 0 < D * D' := lt_of_le_of_ne hn (Ne.symm h0)
  have s1 : D ^ 2 = x ^ 2 + y ^ 2 := Real.sq_sqrt (by positivity)
  have s2 : D' ^ 2 = x' ^ 2 + y' ^ 2 := Real.sq_sqrt (by positivity)
  have habs : |x * x' + y * y'| ≤ D * D' := by
    apply abs_le_of_sq_le_sq _ hn
    rw [mul_pow, s1, s2]
    nlinarith [sq_nonneg (x * y' - y * x')]
  obtain ⟨h1, h2⟩ := abs_le.1 habs
  constructor
  · rw [le_div_iff₀ hp]; linarith
  · rw [div_le_one hp]; exact h2

theorem factor_bound (l : List (Option ℝ × ℝ)) (hs : ∀ p ∈ l, 0 ≤ p.2) (hc : ∀ p ∈ l, ∀ c, p.1 = some c → -1 ≤ c ∧ c ≤ 1)
    (f : ℝ) (h : factor l = some f) : 0 ≤ f ∧ f ≤ 2 := by
  have key : ∀ l : List (Option ℝ × ℝ), (∀ p ∈ l, 0 ≤ p.2) → (∀ p ∈ l, ∀ c, p.1 = some c → -1 ≤ c ∧ c ≤ 1) →
      ∀ num, osum (l.map fun p => p.1.map fun c => (1 - c) * p.2) = some num →
        0 ≤ num ∧ num ≤ 2 * (l.map (·.2)).sum ∧ 0 ≤ (l.map (·.2)).sum := by
    intro l
    induction l with
    | nil => intro _ _ num h; simp [osum] at h; subst h; simp
    | cons p l ih =>
      intro hs hc num h
      obtain ⟨o, s⟩ := p
      cases o with
      | none => simp [osum] at h
      | some c =>
        simp only [List.map_cons, Option.map_some, osum] at h
        cases hl : osum (l.map fun p => p.1.map fun c => (1 - c) * p.2) with
        | none => rw [hl] at h; simp at h
        | some num' =>
          rw [hl] at h
          simp only [Option.map_some, Option.some.injEq] at h
          subst h
          obtain ⟨h1, h2, h3⟩ := ih (fun p hp => hs p (by simp [hp])) (fun p hp => hc p (by simp [hp])) num' hl
          obtain ⟨c1, c2⟩ := hc (some c, s) (by simp) c rfl
          have hs0 : 0 ≤ s := hs (some c, s) (by simp)
          rw [List.map_cons, List.sum_cons]
          have e1 : 0 ≤ (1 - c) * s := mul_nonneg (by linarith) hs0
          have e2 : (1 - c) * s ≤ 2 * s := mul_le_mul_of_nonneg_right (by linarith) hs0
          refine ⟨by linarith, by linarith, by linarith⟩
  unfold factor at h
  cases ho : osum (l.map fun p => p.1.map fun c => (1 - c) * p.2) with
  | none => rw [ho] at h; simp at h
  | some num =>
    rw [ho] at h
    dsimp only at h
    split_ifs at h with hz
    simp only [Option.some.injEq] at h
    subst h
    obtain ⟨h1, h2, h3⟩ := key l hs hc num ho
    have hp : 0 < (l.map (·.2)).sum := lt_of_le_of_ne h3 (Ne.symm hz)
    exact ⟨div_nonneg h1 h3, by rw [div_le_iff₀ hp]; exact h2⟩

/-- **C71.** With distance weights that are not negative, the directional factor of every neighbour, with or without
broadcasting, lies between 0 and 2. -/
theorem directional_bound (bcast : Bool) (n k : Nat) (b : Nb) (hs : ∀ a j, 0 ≤ b.s a j) (a i : Nat) (ha : a < n)
    (hi : i < k) : 0 ≤ directional bcast n k b a i ∧ directional bcast n k b a i ≤ 2 := by
  have h : directional bcast n k b a i = directional false n k b a i := by
    cases bcast
    · rfl
    · exact broadcast_eq_loop n k b a i ha hi
  rw [h]
  unfold directional
  rw [if_neg (by simp)]
  cases hf : dirLoop k b a i with
  | none => simp
  | some f =>
    refine factor_bound _ ?_ ?_ f hf
    · intro p hp
      obtain ⟨j, -, rfl⟩ := List.mem_map.1 hp
      exact hs a j
    · intro p hp c hc
      obtain ⟨j, -, rfl⟩ := List.mem_map.1 hp
      exact cosTheta_bound hc

/-! ## C83: final weights -/

theorem normalise_sum {k : Nat} (w : Fin k → ℝ) (hw : ∀ i, 0 ≤ w i) (j : Fin k) (hj : 0 < w j) :
    ∃ v : Fin k → ℝ, (∀ i, normalise w i = some (v i)) ∧ (∀ i, 0 ≤ v i) ∧ ∑ i, v i = 1 ∧
      (∀ i, v i = 0 ↔ w i = 0) := by
  have hs : 0 < ∑ i, w i := Finset.sum_pos' (fun i _ => hw i) ⟨j, Finset.mem_univ _, hj⟩
  refine ⟨fun i => w i / ∑ j, w j, fun i => ?_, fun i => div_nonneg (hw i) hs.le, ?_, fun i => ?_⟩
  · unfold normalise; rw [if_neg hs.ne']
  · rw [← Finset.sum_div, div_self hs.ne']
  · rw [div_eq_zero_iff]
    constructor
    · rintro (h | h)
      · exact h
      · exact absurd h hs.ne'
    · exact Or.inl

theorem adwRadius_pos {rref : ℝ} {d : Fin 11 → ℝ} (hd : Monotone d) : d 0 ≤ adwRadius rref d := by
  unfold adwRadius
  split_ifs with h1 h2
  · exact hd (Fin.zero_le _)
  · exact le_trans (hd (Fin.zero_le _)) (not_lt.1 h1)
  · exact hd (Fin.zero_le _)

/-- **C83** (the part that holds), ADW: distances in increasing order, directional factors between 0 and 2. If the
nearest station is closer than the radius, the weights are finite, not negative and sum to one, and exactly the
stations inside the radius have a positive weight. A cell that coincides with a station takes its value alone.
What is missing: the nearest station as far as the radius (`adw_equidistant`). -/
theorem adw_weights_partial (rref : ℝ) (d f : Fin 11 → ℝ) (hd : Monotone d) (hf : ∀ i, 0 ≤ f i ∧ f i ≤ 2) :
    (d 0 ≤ 1 / 10000000000 → ∀ i, adwWeights rref d f i = some (if i = 0 then 1 else 0)) ∧
    (1 / 10000000000 < d 0 → d 0 < adwRadius rref d →
      ∃ v : Fin 11 → ℝ, (∀ i, adwWeights rref d f i = some (v i)) ∧ (∀ i, 0 ≤ v i) ∧ ∑ i, v i = 1 ∧
        (∀ i, v i = 0 ↔ adwRadius rref d ≤ d i)) := by
  constructor
  · intro h i
    unfold adwWeights
    rw [if_pos h]; split_ifs <;> rfl
  · intro h hr
    have h0 : 0 < d 0 := lt_trans (by norm_num) h
    have hrpos : 0 < adwRadius rref d := lt_trans h0 hr
    obtain ⟨w1, -, -, w4, w5⟩ := adw_weight _ hrpos
    have hdpos : ∀ i, 0 < d i := fun i => lt_of_lt_of_le h0 (hd (Fin.zero_le i))
    set w : Fin 11 → ℝ := fun j => adwS (adwRadius rref d) (d j) ^ 2 * (1 + f j) with hw
    have hwn : ∀ i, 0 ≤ w i := fun i => mul_nonneg (sq_nonneg _) (by linarith [(hf i).1])
    have hwp : ∀ i, d i < adwRadius rref d → 0 < w i := fun i hi =>
      mul_pos (pow_pos (w5 _ (hdpos i) hi) 2) (by linarith [(hf i).1])
    obtain ⟨v, v1, v2, v3, v4⟩ := normalise_sum w hwn 0 (hwp 0 hr)
    refine ⟨v, fun i => ?_, v2, v3, fun i => ?_⟩
    · unfold adwWeights
      rw [if_neg (not_le.2 h)]; exact v1 i
    · rw [v4]
      constructor
      · intro hi
        by_contra hc
        exact (hwp i (not_le.1 hc)).ne' hi
      · intro hi
        show adwS _ _ ^ 2 * _ = 0
        rw [w4 _ hi]; ring

/-- C83 fails when the eleven nearest stations are all at the same distance (a target on the pole of a regular grid
without points on the pole): no weight is finite. -/
theorem adw_equidistant (rref x : ℝ) (hx : 1 / 10000000000 < x) (hr : rref = x) (f : Fin 11 → ℝ) (i : Fin 11) :
    adwWeights rref (fun _ => x) f i = none := by
  subst hr
  have h0 : 0 < rref := lt_trans (by norm_num) hx
  have hrad : adwRadius rref (fun _ => rref) = rref := by
    unfold adwRadius; rw [if_neg (lt_irrefl _), if_neg (lt_irrefl _)]
  unfold adwWeights
  rw [if_neg (not_le.2 hx), hrad]
  unfold normalise
  rw [if_pos]
  apply Finset.sum_eq_zero
  intro j _
  rw [(adw_weight rref h0).2.2.2.1 rref (le_refl _)]; ring

/-- **C83** (the part that holds), CDD: distance weights that are not negative, one of them positive, factors that are
not negative and not all zero. The weights are finite, not negative, sum to one, and the stations with zero distance
weight have weight zero. What is missing: all factors zero (`cdd_same_direction`), no station within the radius
(`cdd_no_station`), and cells that coincide with a station (`cdd_not_exact`). -/
theorem cdd_weights_partial (s f : Fin 11 → ℝ) (hs : ∀ i, 0 ≤ s i) (hf : ∀ i, 0 ≤ f i) (j l : Fin 11) (hj : 0 < s j)
    (hl : 0 < f l) :
    ∃ v : Fin 11 → ℝ, (∀ i, cddWeights s f i = some (v i)) ∧ (∀ i, 0 ≤ v i) ∧ ∑ i, v i = 1 ∧
      (∀ i, v i = 0 ↔ s i = 0) := by
  have hsum : 0 < ∑ i, f i := Finset.sum_pos' (fun i _ => hf i) ⟨l, Finset.mem_univ _, hl⟩
  have hone : ∀ i, 0 < 1 + f i / ∑ l, f l := fun i => by have := div_nonneg (hf i) hsum.le; linarith
  set w : Fin 11 → ℝ := fun i => s i * (1 + f i / ∑ l, f l) with hw
  obtain ⟨v, v1, v2, v3, v4⟩ := normalise_sum w (fun i => mul_nonneg (hs i) (hone i).le) j (mul_pos hj (hone j))
  refine ⟨v, fun i => ?_, v2, v3, fun i => ?_⟩
  · unfold cddWeights
    rw [if_neg hsum.ne']; exact v1 i
  · rw [v4]
    show s i * _ = 0 ↔ _
    rw [mul_eq_zero]
    constructor
    · rintro (h | h)
      · exact h
      · exact absurd h (hone i).ne'
    · exact Or.inl

/-- C83 fails for CDD when no station is within the radius: no weight is finite. -/
theorem cdd_no_station (s f : Fin 11 → ℝ) (hs : ∀ i, s i = 0) (i : Fin 11) : cddWeights s f i = none := by
  unfold cddWeights
  split_ifs
  · rfl
  · unfold normalise
    rw [if_pos]
    apply Finset.sum_eq_zero
    intro j _
    rw [hs j]; ring

theorem cosTheta_same {x y c c' : ℝ} (hc : 0 < c) (hc' : 0 < c') (h : ¬ (x = 0 ∧ y = 0)) :
    cosTheta (c * x) (c * y) (c' * x) (c' * y) = some 1 := by
  have hq : 0 < x ^ 2 + y ^ 2 := by
    rcases not_and_or.1 h with h | h
    · have : 0 < x ^ 2 := by positivity
      nlinarith [sq_nonneg y]
    · have : 0 < y ^ 2 := by positivity
      nlinarith [sq_nonneg x]
  have e : ∀ c : ℝ, 0 < c → Real.sqrt ((c * x) ^ 2 + (c * y) ^ 2) = c * Real.sqrt (x ^ 2 + y ^ 2) := by
    intro c hc
    have : (c * x) ^ 2 + (c * y) ^ 2 = c ^ 2 * (x ^ 2 + y ^ 2) := by ring
    rw [this, Real.sqrt_mul (sq_nonneg c), Real.sqrt_sq hc.le]
  have hs : 0 < Real.sqrt (x ^ 2 + y ^ 2) := Real.sqrt_pos.2 hq
  unfold cosTheta
  rw [e c hc, e c' hc', if_neg (by positivity)]
  congr 1
  have hss : Real.sqrt (x ^ 2 + y ^ 2) * Real.sqrt (x ^ 2 + y ^ 2) = x ^ 2 + y ^ 2 := Real.mul_self_sqrt hq.le
  rw [div_eq_one_iff_eq (by positivity)]
  calc c * x * (c' * x) + c * y * (c' * y) = c * c' * (x ^ 2 + y ^ 2) := by ring
    _ = c * Real.sqrt (x ^ 2 + y ^ 2) * (c' * Real.sqrt (x ^ 2 + y ^ 2)) := by
      generalize Real.sqrt (x ^ 2 + y ^ 2) = R at hss
      rw [← hss]; ring

theorem osum_zero {α : Type} (l : List α) (g : α → Option ℝ) (h : ∀ a ∈ l, g a = some 0) : osum (l.map g) = some 0 := by
  induction l with
  | nil => rfl
  | cons a l ih =>
    rw [List.map_cons, h a (by simp), osum, ih (fun b hb => h b (by simp [hb]))]
    simp

/-- C83 fails for CDD when the target sees all stations in the same direction (a target beside a line of stations, or
outside the area they cover in the limit): every directional factor is zero, and no weight is finite. -/
theorem cdd_same_direction (bcast : Bool) (n : Nat) (b : Nb) (a : Nat) (ha : a < n) (x y : ℝ) (hxy : ¬ (x = 0 ∧ y = 0))
    (c : Nat → ℝ) (hc : ∀ j, 0 < c j) (hx : ∀ j, b.dx a j = c j * x) (hy : ∀ j, b.dy a j = c j * y)
    (hs : ∀ j, 0 < b.s a j) (i : Fin 11) :
    cddWeights (fun j => b.s a j) (fun j => directional bcast n 11 b a j) i = none := by
  have hz : ∀ j : Fin 11, directional bcast n 11 b a j = 0 := by
    intro j
    have h : directional bcast n 11 b a j = directional false n 11 b a j := by
      cases bcast
      · rfl
      · exact broadcast_eq_loop n 11 b a j ha j.2
    rw [h]
    unfold directional
    rw [if_neg (by simp)]
    have : dirLoop 11 b a (j : Nat) = some 0 := by
      unfold dirLoop factor
      generalize hL : (List.range j ++ List.range' (j + 1) (11 - (j + 1))) = L
      rw [List.map_map, osum_zero L _ (fun j' _ => ?_)]
      · dsimp only
        rw [if_neg, zero_div]
        rw [List.map_map]
        have hne : L ≠ [] := by
          rw [← hL]
          intro hnil
          have := congrArg List.length hnil
          simp at this
          omega
        cases L with
        | nil => exact absurd rfl hne
        | cons j0 L =>
          rw [List.map_cons, List.sum_cons]
          have h1 : 0 < b.s a j0 := hs j0
          have h2 : 0 ≤ (L.map (Prod.snd ∘ fun j' => (b.cos a j j', b.s a j'))).sum :=
            List.sum_nonneg (by
              intro z hz
              obtain ⟨j', -, rfl⟩ := List.mem_map.1 hz
              exact (hs j').le)
          show b.s a j0 + _ ≠ 0
          exact (add_pos_of_pos_of_nonneg h1 h2).ne'
      · dsimp only [Function.comp]
        unfold Nb.cos
        rw [hx, hy, hx, hy, cosTheta_same (hc j) (hc j') hxy]
        simp
    rw [this]; rfl
  unfold cddWeights
  rw [if_pos (Finset.sum_eq_zero fun j _ => hz j)]

/-- C83 fails for CDD at a station: with a second station within the radius, the weight of the station itself is less
than one. -/
theorem cdd_not_exact (s f : Fin 11 → ℝ) (hs : ∀ i, 0 ≤ s i) (hf : ∀ i, 0 ≤ f i) (l : Fin 11) (hl : 0 < f l)
    (h0 : 0 < s 0) (h1 : 0 < s 1) : ∃ v : ℝ, cddWeights s f 0 = some v ∧ v < 1 := by
  obtain ⟨v, v1, v2, v3, v4⟩ := cdd_weights_partial s f hs hf 0 l h0 hl
  refine ⟨v 0, v1 0, ?_⟩
  have hv1 : 0 < v 1 := lt_of_le_of_ne (v2 1) (fun h => h1.ne' ((v4 1).1 h.symm))
  have : v 0 + v 1 ≤ ∑ i, v i := by
    have hsub : ({0, 1} : Finset (Fin 11)) ⊆ Finset.univ := Finset.subset_univ _
    have := Finset.sum_le_sum_of_subset_of_nonneg hsub (fun i _ _ => v2 i)
    rw [Finset.sum_pair (by decide)] at this
    exact this
  linarith

/-! ## C84: longitudes -/

/-- **C84** (the part that holds): the factor of a neighbour is the same in two conventions when the cell and all
its neighbours are changed by the same number of degrees. What is missing: cells with neighbours on both sides of the
meridian where the conventions differ (`directional_longitude`). -/
theorem directional_longitude_partial (bcast : Bool) (n k : Nat) (tlat tlon tlon' lat lon lon' : Nat → ℝ)
    (idx : Nat → Nat → Nat) (s : Nat → Nat → ℝ) (a i : Nat) (ha : a < n) (hi : i < k) (c : ℝ)
    (ht : tlon' a = tlon a + c) (hl : ∀ j < k, lon' (idx a j) = lon (idx a j) + c) :
    directional bcast n k (Nb.of tlat tlon' lat lon' idx s) a i =
      directional bcast n k (Nb.of tlat tlon lat lon idx s) a i := by
  have key : ∀ b : Nb, directional bcast n k b a i = directional false n k b a i := by
    intro b
    cases bcast
    · rfl
    · exact broadcast_eq_loop n k b a i ha hi
  rw [key, key]
  unfold directional
  rw [if_neg (by simp), if_neg (by simp)]
  congr 1
  unfold dirLoop
  congr 1
  apply List.map_congr_left
  intro j hj
  have hjk : j < k := by
    rcases List.mem_append.1 hj with h | h
    · exact lt_trans (List.mem_range.1 h) hi
    · have := List.mem_range'_1.1 h; omega
  have e : ∀ j < k, tlon' a - lon' (idx a j) = tlon a - lon (idx a j) := fun j hj => by rw [ht, hl j hj]; ring
  simp only [Nb.cos, Nb.of, e i hi, e j hjk]

/-- C84 is false: two stations, one degree east and one degree west of the target. With the second one at longitude -1
the first has factor 2, with the same station at longitude 359 it has factor 0. -/
theorem directional_longitude : ∃ (lon lon' : Nat → ℝ),
    (∀ i, lon' i = lon i ∨ lon' i = lon i + 360) ∧
    directional false 1 2 (Nb.of (fun _ => 0) (fun _ => 0) (fun _ => 0) lon (fun _ j => j) (fun _ _ => 1)) 0 0 = 2 ∧
    directional false 1 2 (Nb.of (fun _ => 0) (fun _ => 0) (fun _ => 0) lon' (fun _ j => j) (fun _ _ => 1)) 0 0 = 0 := by
  refine ⟨fun i => if i = 0 then 1 else -1, fun i => if i = 0 then 1 else 359, fun i => ?_, ?_, ?_⟩
  · by_cases h : i = 0
    · left; simp [h]
    · right; simp [h]; norm_num
  · have h1 : cosTheta 0 (-1) 0 1 = some (-1) := by
      unfold cosTheta; norm_num
    simp [directional, dirLoop, factor, Nb.of, Nb.cos, osum, h1, List.range'_succ]
    norm_num
  · have h1 : cosTheta 0 (-1) 0 (-359) = some 1 := by
      have := cosTheta_same (x := 0) (y := -1) (c := 1) (c' := 359) (by norm_num) (by norm_num) (by norm_num)
      norm_num at this ⊢
      exact this
    simp [directional, dirLoop, factor, Nb.of, Nb.cos, osum, h1, List.range'_succ]

/-! ## Non-vacuity -/

/-- Three neighbours, north, south and east: the broadcasting code gives the northern one a factor of 3/2. -/
example : directional true 1 3 ⟨fun _ j => if j = 0 then 1 else if j = 1 then -1 else 0,
    fun _ j => if j = 2 then 1 else 0, fun _ _ => 1⟩ 0 0 = 3 / 2 := by
  rw [broadcast_eq_loop _ _ _ _ _ (by norm_num) (by norm_num)]
  have h1 : cosTheta 1 0 (-1) 0 = some (-1) := by unfold cosTheta; norm_num
  have h2 : cosTheta 1 0 0 1 = some 0 := by unfold cosTheta; norm_num
  simp [directional, dirLoop, factor, Nb.cos, osum, h1, h2, List.range'_succ]
  norm_num

example : ∃ v : Fin 11 → ℝ, (∀ i, adwWeights 7 Demo.dist11 (fun _ => 1) i = some (v i)) ∧ ∑ i, v i = 1 ∧
    (∀ i, v i = 0 ↔ 7 ≤ Demo.dist11 i) := by
  have hr : adwRadius 7 Demo.dist11 = 7 := by unfold adwRadius Demo.dist11; norm_num
  obtain ⟨v, v1, v2, v3, v4⟩ := (adw_weights_partial 7 Demo.dist11 (fun _ => 1) Demo.dist11_mono
    (fun _ => by norm_num)).2 (by unfold Demo.dist11; norm_num) (by rw [hr]; unfold Demo.dist11; norm_num)
  exact ⟨v, v1, v3, by rw [hr] at v4; exact v4⟩

/-- CDD: eleven neighbours of which three are within the radius. -/
example : ∃ v : Fin 11 → ℝ, (∀ i, cddWeights (fun i => if i.1 < 3 then 1 else 0) (fun i => i) i = some (v i)) ∧
    ∑ i, v i = 1 ∧ 0 < v 2 ∧ v 3 = 0 := by
  obtain ⟨v, v1, v2, v3, v4⟩ := cdd_weights_partial (fun i => if i.1 < 3 then 1 else 0) (fun i => (i.1 : ℝ))
    (fun i => by split_ifs <;> norm_num) (fun i => by positivity) 0 1 (by norm_num) (by norm_num)
  refine ⟨v, v1, v3, lt_of_le_of_ne (v2 2) fun h => ?_, (v4 3).2 (by norm_num)⟩
  have := (v4 2).1 h.symm
  norm_num at this

/-- CDD: eleven stations on a meridian north of the target, at distances 1, 2, …, 11. -/
example (i : Fin 11) : cddWeights (fun _ => 1)
    (fun j => directional true 1 11 ⟨fun _ j => ((j : ℝ) + 1) * 1, fun _ j => ((j : ℝ) + 1) * 0, fun _ _ => 1⟩ 0 j) i = none :=
  cdd_same_direction true 1 ⟨fun _ j => ((j : ℝ) + 1) * 1, fun _ j => ((j : ℝ) + 1) * 0, fun _ _ => 1⟩ 0 (by norm_num) 1 0
    (by norm_num) (fun j => (j : ℝ) + 1) (fun j => by positivity) (fun _ => rfl) (fun _ => rfl) (fun _ => by norm_num) i

/-! ## C67: splits of the ADW method -/

theorem dirLoop_congr (k : Nat) (b b' : Nb) (a a' i : Nat) (h1 : ∀ j, b.dx a j = b'.dx a' j) (h2 : ∀ j, b.dy a j = b'.dy a' j)
    (h3 : ∀ j, b.s a j = b'.s a' j) : dirLoop k b a i = dirLoop k b' a' i := by
  unfold dirLoop Nb.cos
  simp only [h1, h2, h3]

theorem directional_eq_loop (bcast : Bool) (n k : Nat) (b : Nb) (a i : Nat) (ha : a < n) (hi : i < k) :
    directional bcast n k b a i = (dirLoop k b a i).getD 1 := by
  cases bcast with
  | true => rw [broadcast_eq_loop n k b a i ha hi]; rfl
  | false => rfl

/-- The row of a cell, with the reference radius given. -/
noncomputable def adwCell {τ : Type} (rref : ℝ) (tlat tlon : τ → ℝ) (lat lon : Nat → ℝ) (query : τ → (Fin 11 → ℝ) × (Nat → Nat))
    (t : τ) : List (Option ℝ × Nat) :=
  let b : Nb := ⟨fun _ j => tlat t - lat ((query t).2 j), fun _ j => tlon t - lon ((query t).2 j),
    fun _ j => if h : j < 11 then adwS (adwRadius rref (query t).1) ((query t).1 ⟨j, h⟩) else 0⟩
  List.ofFn fun i : Fin 11 =>
    (adwWeights rref (query t).1 (fun j => (dirLoop 11 b 0 j).getD 1) i, (query t).2 i)

theorem adwPart_cells {τ : Type} (ref : Option ℝ) (bcast : Bool) (tlat tlon : τ → ℝ) (lat lon : Nat → ℝ)
    (query : τ → (Fin 11 → ℝ) × (Nat → Nat)) (grid : List (List τ)) :
    adwPart ref bcast tlat tlon lat lon query grid = .ok (.table (grid.flatten.map
      (adwCell (ref.getD (meanSeventh (grid.flatten.map fun t => (query t).1))) tlat tlon lat lon query))) := by
  unfold adwPart
  dsimp only
  generalize grid.flatten = cells
  generalize ref.getD (meanSeventh (cells.map fun t => (query t).1)) = rref
  congr 2
  apply List.ext_getElem?
  intro a
  rw [List.getElem?_mapIdx, List.getElem?_map]
  cases ht : cells[a]? with
  | none => rfl
  | some t =>
    have ha : a < cells.length := (List.getElem?_eq_some_iff.1 ht).1
    dsimp only [Option.map_some]
    congr 1
    unfold adwCell
    dsimp only
    congr 1
    funext i
    congr 2
    funext j
    rw [directional_eq_loop _ _ _ _ _ _ ha j.isLt]
    congr 1
    refine dirLoop_congr 11 _ _ a 0 j (fun l => ?_) (fun l => ?_) (fun l => ?_) <;>
    · dsimp only
      unfold atCell
      rw [ht]
      rfl

/-- **C67** for the ADW method: the table computed in `k` pieces is the one computed at once (reference radius
included), for any number of pieces from 1 to the number of rows. -/
theorem splits_adw {τ : Type} (k : Nat) (bcast : Bool) (tlat tlon : τ → ℝ) (lat lon : Nat → ℝ)
    (query : τ → (Fin 11 → ℝ) × (Nat → Nat)) (grid : List (List τ)) (hk : 0 < k) (hkr : k ≤ grid.length) :
    adwInterpolate (some k) bcast tlat tlon lat lon query grid =
      adwInterpolate none bcast tlat tlon lat lon query grid := by
  unfold adwInterpolate
  dsimp only [Option.map_some, Option.map_none]
  rw [splits_cellwise_partial 11 k _
    (adwCell (meanSeventh (grid.flatten.map fun t => (query t).1)) tlat tlon lat lon query)
    (fun t => by unfold adwCell; dsimp only; rw [List.length_ofFn]) grid hk hkr
    (fun block _ => by rw [adwPart_cells]; rfl)]
  unfold interpolate
  dsimp only
  rw [adwPart_cells, adwPart_cells]
  rfl

/-- **C68**: the reference radius of the ADW method without splits is the mean over all target cells of the distance to
the seventh station. -/
theorem adw_reference {τ : Type} (bcast : Bool) (tlat tlon : τ → ℝ) (lat lon : Nat → ℝ)
    (query : τ → (Fin 11 → ℝ) × (Nat → Nat)) (grid : List (List τ)) :
    adwPart none bcast tlat tlon lat lon query grid = .ok (.table (grid.flatten.map
      (adwCell ((grid.flatten.map fun t => (query t).1 6).sum / grid.flatten.length) tlat tlon lat lon query))) := by
  rw [adwPart_cells, Option.getD_none]
  unfold meanSeventh
  rw [List.map_map, List.length_map]
  rfl

/-- C68, C84: only differences of coordinates matter: moving cells and stations by the same number of degrees in
latitude and longitude changes no directional factor. -/
theorem directional_shift (bcast : Bool) (n k : Nat) (tlat tlon lat lon : Nat → ℝ) (idx : Nat → Nat → Nat)
    (s : Nat → Nat → ℝ) (p q : ℝ) :
    directional bcast n k (Nb.of (fun a => tlat a + p) (fun a => tlon a + q) (fun i => lat i + p) (fun i => lon i + q) idx s) =
      directional bcast n k (Nb.of tlat tlon lat lon idx s) := by
  have : Nb.of (fun a => tlat a + p) (fun a => tlon a + q) (fun i => lat i + p) (fun i => lon i + q) idx s =
      Nb.of tlat tlon lat lon idx s := by
    unfold Nb.of
    congr 1
    · funext a j; ring
    · funext a j; ring
  rw [this]

end PyG2P
