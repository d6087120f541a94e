import Verif.Model.ScipyWeights
import Mathlib.Topology.Order.OrderClosed
import Mathlib.Topology.Algebra.Order.Field
import Mathlib.Order.Interval.Finset.Fin
import Mathlib.Tactic.Positivity
import Mathlib.Tactic.FieldSimp
import Mathlib.Tactic.NormNum

/-! # C68, C69: distance weights of the ADW and CDD methods -/

namespace PyG2P
open ScipyLib Set

/-! ## C68: Shepard's weights -/

theorem adwS_mid_le {r x : ℝ} (hr : 0 < r) (h1 : r / 3 ≤ x) (h2 : x ≤ r) :
    27 / (4 * r) * (x / r - 1) ^ 2 ≤ 3 / r := by
  have ha : 1 / 3 ≤ x / r := by rw [le_div_iff₀ hr]; linarith
  have hb : x / r ≤ 1 := by rw [div_le_one hr]; exact h2
  have hc : (x / r - 1) ^ 2 ≤ 4 / 9 := by nlinarith
  have : 27 / (4 * r) * (x / r - 1) ^ 2 ≤ 27 / (4 * r) * (4 / 9) :=
    mul_le_mul_of_nonneg_left hc (by positivity)
  calc 27 / (4 * r) * (x / r - 1) ^ 2 ≤ 27 / (4 * r) * (4 / 9) := this
    _ = 3 / r := by field_simp; norm_num

theorem adwS_at_third {r : ℝ} (hr : 0 < r) : 27 / (4 * r) * ((r / 3) / r - 1) ^ 2 = 3 / r := by
  field_simp; norm_num

/-- **C68**, the weight: for a positive radius, the weight is not negative, does not increase with the distance, is
continuous, and is zero from the radius on. -/
theorem adw_weight (r : ℝ) (hr : 0 < r) :
    (∀ x, 0 < x → 0 ≤ adwS r x) ∧ AntitoneOn (adwS r) (Ioi 0) ∧ ContinuousOn (adwS r) (Ioi 0) ∧
    (∀ x, r ≤ x → adwS r x = 0) ∧ (∀ x, 0 < x → x < r → 0 < adwS r x) := by
  have nonneg : ∀ x, 0 < x → 0 ≤ adwS r x := by
    intro x hx
    unfold adwS
    split_ifs <;> positivity
  refine ⟨nonneg, ?_, ?_, ?_, ?_⟩
  · intro x hx y hy hxy
    have hx : 0 < x := hx
    by_cases y1 : y ≤ r / 3
    · unfold adwS
      rw [if_pos (le_trans hxy y1), if_pos y1]
      exact one_div_le_one_div_of_le hx hxy
    · by_cases y2 : y ≤ r
      · by_cases x1 : x ≤ r / 3
        · unfold adwS
          rw [if_pos x1, if_neg y1, if_pos y2]
          refine le_trans (adwS_mid_le hr (not_le.1 y1).le y2) ?_
          rw [div_le_div_iff₀ hr hx]; linarith
        · unfold adwS
          rw [if_neg x1, if_neg y1, if_pos y2, if_pos (le_trans hxy y2)]
          refine mul_le_mul_of_nonneg_left ?_ (by positivity)
          have ha : x / r ≤ y / r := div_le_div_of_nonneg_right hxy hr.le
          have hb : y / r ≤ 1 := by rw [div_le_one hr]; exact y2
          nlinarith
      · have : adwS r y = 0 := by unfold adwS; rw [if_neg y1, if_neg y2]
        rw [this]; exact nonneg x hx
  · intro x0 hx0
    have hx0 : 0 < x0 := hx0
    apply ContinuousAt.continuousWithinAt
    set ε := min (x0 / 2) (r / 3) with hε
    have hε0 : 0 < ε := by rw [hε]; exact lt_min (by linarith) (by linarith)
    have hε1 : ε ≤ r / 3 := min_le_right _ _
    have hε2 : ε < x0 := lt_of_le_of_lt (min_le_left _ _) (by linarith)
    have hcont : Continuous fun x : ℝ => if x ≤ r / 3 then 1 / max x ε
        else if x ≤ r then 27 / (4 * r) * (x / r - 1) ^ 2 else 0 := by
      refine Continuous.if_le ?_ ?_ continuous_id continuous_const ?_
      · exact continuous_const.div (continuous_id.max continuous_const)
          (fun x => (lt_of_lt_of_le hε0 (le_max_right _ _)).ne')
      · refine Continuous.if_le (by fun_prop) continuous_const continuous_id continuous_const ?_
        intro x hx
        have hx : x = r := hx
        rw [hx, div_self hr.ne']; norm_num
      · intro x hx
        have hx : x = r / 3 := hx
        subst hx
        rw [max_eq_left hε1, if_pos (show r / 3 ≤ r by linarith), adwS_at_third hr]
        field_simp
    refine (hcont.continuousAt (x := x0)).congr ?_
    filter_upwards [Ioi_mem_nhds hε2] with x hx
    have hx : ε < x := hx
    unfold adwS
    rw [max_eq_left hx.le]
  · intro x hx
    unfold adwS
    rw [if_neg (by intro h; linarith)]
    split_ifs with h
    · have : x = r := le_antisymm h hx
      rw [this, div_self hr.ne']; norm_num
    · rfl
  · intro x hx h
    unfold adwS
    split_ifs with h1 h2
    · positivity
    · have : x / r < 1 := by rw [div_lt_one hr]; exact h
      have : x / r - 1 ≠ 0 := by intro h'; linarith
      positivity
    · exact absurd h.le h2

/-- Non-vacuity: weights at a third, a half and the whole radius of 6. -/
example : adwS 6 2 = 1 / 2 ∧ adwS 6 3 = 9 / 32 ∧ adwS 6 6 = 0 := by
  unfold adwS; norm_num

/-- The number of neighbours within the reference radius. -/
noncomputable def Spec.within (rref : ℝ) (d : Fin 11 → ℝ) : Nat := (Finset.univ.filter fun i => d i ≤ rref).card

theorem within_le_iff (rref : ℝ) (d : Fin 11 → ℝ) (hd : Monotone d) (m : Fin 11) :
    Spec.within rref d ≤ m ↔ rref < d m := by
  unfold Spec.within
  constructor
  · intro h
    by_contra hc
    have hsub : Finset.Iic m ⊆ Finset.univ.filter fun i => d i ≤ rref := by
      intro i hi
      rw [Finset.mem_filter]
      exact ⟨Finset.mem_univ _, le_trans (hd (Finset.mem_Iic.1 hi)) (not_lt.1 hc)⟩
    have := Finset.card_le_card hsub
    rw [Fin.card_Iic] at this
    omega
  · intro h
    have hsub : (Finset.univ.filter fun i => d i ≤ rref) ⊆ Finset.Iio m := by
      intro i hi
      rw [Finset.mem_filter] at hi
      rw [Finset.mem_Iio]
      by_contra hc
      have := hd (not_lt.1 hc)
      linarith [hi.2]
    have := Finset.card_le_card hsub
    rw [Fin.card_Iio] at this
    exact this

/-- **C68** (the part that holds), the radius. With at most 3 points within the reference radius it is the fifth
distance, with 4 to 9 the reference radius, with 10 or 11 the eleventh distance. What is missing: the documented rule
differs for exactly 4 and exactly 10 points (`adw_radius_four`, `adw_radius_ten`). -/
theorem adw_radius_partial (rref : ℝ) (d : Fin 11 → ℝ) (hd : Monotone d) :
    (Spec.within rref d ≤ 3 → adwRadius rref d = d 4) ∧
    (4 ≤ Spec.within rref d → Spec.within rref d ≤ 9 → adwRadius rref d = rref) ∧
    (10 ≤ Spec.within rref d → adwRadius rref d = d 10) := by
  have h3 := within_le_iff rref d hd 3
  have h9 := within_le_iff rref d hd 9
  have e3 : ((3 : Fin 11) : Nat) = 3 := rfl
  have e9 : ((9 : Fin 11) : Nat) = 9 := rfl
  rw [e3] at h3
  rw [e9] at h9
  unfold adwRadius
  refine ⟨fun h => ?_, fun h h' => ?_, fun h => ?_⟩
  · rw [if_pos (h3.1 h)]
  · rw [if_neg (fun hh => by have := h3.2 hh; omega), if_pos (h9.1 h')]
  · rw [if_neg (fun hh => by have := h3.2 hh; omega), if_neg (fun hh => by have := h9.2 hh; omega)]

/-- The documented rule (lines 331-335 of the source): the fifth distance with up to 4 points within the reference
radius, the reference radius with 5 to 10, the eleventh distance with more. -/
noncomputable def Spec.shepardRadius (rref : ℝ) (d : Fin 11 → ℝ) : ℝ :=
  if Spec.within rref d ≤ 4 then d 4 else if Spec.within rref d ≤ 10 then rref else d 10

/-- C68 fails with exactly four points within the reference radius. -/
theorem adw_radius_four (rref : ℝ) (d : Fin 11 → ℝ) (hd : Monotone d) (h : Spec.within rref d = 4) :
    adwRadius rref d = rref ∧ Spec.shepardRadius rref d = d 4 ∧ rref < d 4 := by
  refine ⟨(adw_radius_partial rref d hd).2.1 (by omega) (by omega), ?_, ?_⟩
  · unfold Spec.shepardRadius; rw [if_pos (by omega)]
  · exact (within_le_iff rref d hd 4).1 (by rw [h]; rfl)

/-- C68 fails with exactly ten points within the reference radius. -/
theorem adw_radius_ten (rref : ℝ) (d : Fin 11 → ℝ) (hd : Monotone d) (h : Spec.within rref d = 10) :
    adwRadius rref d = d 10 ∧ Spec.shepardRadius rref d = rref ∧ rref < d 10 := by
  refine ⟨(adw_radius_partial rref d hd).2.2 (by omega), ?_, ?_⟩
  · unfold Spec.shepardRadius; rw [if_neg (by omega), if_pos (by omega)]
  · exact (within_le_iff rref d hd 10).1 (by rw [h]; rfl)

/-- In all other cases the radius is the documented one. -/
theorem adw_radius_documented (rref : ℝ) (d : Fin 11 → ℝ) (hd : Monotone d) (h4 : Spec.within rref d ≠ 4)
    (h10 : Spec.within rref d ≠ 10) : adwRadius rref d = Spec.shepardRadius rref d := by
  obtain ⟨a, b, c⟩ := adw_radius_partial rref d hd
  unfold Spec.shepardRadius
  split_ifs with h1 h2
  · exact a (by omega)
  · exact b (by omega) (by omega)
  · exact c (by omega)

/-- Distances 1, 2, ..., 11. -/
noncomputable def Demo.dist11 (i : Fin 11) : ℝ := (i : ℕ) + 1

theorem Demo.dist11_mono : Monotone Demo.dist11 := by
  intro i j h
  unfold Demo.dist11
  have : (i : ℕ) ≤ (j : ℕ) := h
  have : ((i : ℕ) : ℝ) ≤ ((j : ℕ) : ℝ) := by exact_mod_cast this
  linarith

/-- Non-vacuity: with distances 1, ..., 11 exactly four points are within radius 9/2 and exactly ten within 21/2. -/
theorem Demo.within4 : Spec.within (9 / 2) Demo.dist11 = 4 ∧ Spec.within (21 / 2) Demo.dist11 = 10 := by
  have key : ∀ (r : ℝ) (m m' : Fin 11), r < Demo.dist11 m → (Demo.dist11 m') ≤ r →
      (m' : Nat) + 1 = m → Spec.within r Demo.dist11 = m := by
    intro r m m' h1 h2 h3
    have a := (within_le_iff r _ Demo.dist11_mono m).2 h1
    have b := (within_le_iff r _ Demo.dist11_mono m').not.2 (not_lt.2 h2)
    omega
  constructor
  · exact key _ 4 3 (by unfold Demo.dist11; norm_num) (by unfold Demo.dist11; norm_num) (by decide)
  · exact key _ 10 9 (by unfold Demo.dist11; norm_num) (by unfold Demo.dist11; norm_num) (by decide)

/-! ## C69: CDD weights -/

theorem exp_le_one_of_nonneg {x m c : ℝ} (hx : 0 ≤ x) (hm : 0 ≤ m) (hc : 0 < c) : Real.exp (-x * m / c) ≤ 1 := by
  rw [Real.exp_le_one_iff]
  apply div_nonpos_of_nonpos_of_nonneg _ hc.le
  nlinarith

/-- **C69**, New et al.: with a positive CDD the weight of a station lies in (0,1] and strictly decreases with the
distance up to the CDD, and is zero beyond. -/
theorem new_weight (c : ℝ) (hc : 0 < c) :
    (∀ x, 0 ≤ x → x ≤ c → 0 < newS c x ∧ newS c x ≤ 1) ∧ StrictAntiOn (newS c) (Icc 0 c) ∧
    (∀ x, c < x → newS c x = 0) ∧ AntitoneOn (newS c) (Ici 0) ∧ newS c 0 = 1 := by
  have hval : ∀ x, x ≤ c → newS c x = Real.exp (-x * 4 / c) := fun x h => by unfold newS; rw [if_pos h]
  have hout : ∀ x, c < x → newS c x = 0 := fun x h => by unfold newS; rw [if_neg (not_le.2 h)]
  have hstrict : ∀ x y, x < y → Real.exp (-y * 4 / c) < Real.exp (-x * 4 / c) := by
    intro x y h
    rw [Real.exp_lt_exp]
    apply div_lt_div_of_pos_right _ hc
    linarith
  refine ⟨fun x h0 h => ?_, fun x hx y hy h => ?_, hout, fun x hx y hy h => ?_, ?_⟩
  · rw [hval x h]
    exact ⟨Real.exp_pos _, exp_le_one_of_nonneg h0 (by norm_num) hc⟩
  · rw [hval x hx.2, hval y hy.2]; exact hstrict x y h
  · rcases le_or_gt y c with h' | h'
    · rw [hval x (le_trans h h'), hval y h']
      rcases h.lt_or_eq with h | h
      · exact (hstrict x y h).le
      · rw [h]
    · rw [hout y h']
      unfold newS; split_ifs
      · exact (Real.exp_pos _).le
      · exact le_refl _
  · rw [hval 0 hc.le]; norm_num

/-- **C69**, Hofstra: with a positive CDD and distances in increasing order, when at least three stations are within the
CDD the weights are those of New et al. for the CDD of the cell: in (0,1] within the CDD, decreasing, zero beyond. With
fewer than three stations they are all zero. -/
theorem hofstra_weight (cdd : ℝ) (hc : 0 < cdd) (d : Fin 11 → ℝ) (hd : Monotone d) (h0 : 0 ≤ d 0) :
    (d 2 ≤ cdd → ∀ i, (d i ≤ cdd → 0 < hofstraS cdd d i ∧ hofstraS cdd d i ≤ 1) ∧
      (cdd < d i → hofstraS cdd d i = 0) ∧ (∀ j, d i ≤ d j → hofstraS cdd d j ≤ hofstraS cdd d i)) ∧
    (cdd < d 2 → ∀ i, hofstraS cdd d i = 0) := by
  obtain ⟨a, -, b, c, -⟩ := new_weight cdd hc
  have hnn : ∀ i, 0 ≤ d i := fun i => le_trans h0 (hd (Fin.zero_le i))
  constructor
  · intro h2 i
    have heq : ∀ j, hofstraS cdd d j = newS cdd (d j) := by
      intro j; unfold hofstraS newS; rw [if_neg (not_lt.2 h2)]
    refine ⟨fun h => ?_, fun h => ?_, fun j h => ?_⟩
    · rw [heq]; exact a _ (hnn i) h
    · rw [heq]; exact b _ h
    · rw [heq, heq]; exact c (hnn i) (hnn j) h
  · intro h2 i
    unfold hofstraS; rw [if_pos h2]

/-- **C69**, mixed method: with a positive radius, a ratio strictly between 0 and 1 and `m ≥ 0`, the weight is
continuous, does not increase with the distance, lies between 0 and 1, and is zero from the radius on. -/
theorem mix_weight (m ratio r : ℝ) (hm : 0 ≤ m) (h0 : 0 < ratio) (h1 : ratio < 1) (hr : 0 < r) :
    Continuous (mixS m ratio r) ∧ AntitoneOn (mixS m ratio r) (Ici 0) ∧
    (∀ x, 0 ≤ x → 0 ≤ mixS m ratio r x ∧ mixS m ratio r x ≤ 1) ∧ (∀ x, r ≤ x → mixS m ratio r x = 0) ∧
    (∀ x, x < r → 0 < mixS m ratio r x) := by
  have hrr : r * ratio < r := by nlinarith
  have hq : (0 : ℝ) < (ratio - 1) ^ 2 := by
    have : ratio - 1 ≠ 0 := by intro h; linarith
    positivity
  set A := 1 / (ratio - 1) ^ 2 * Real.exp (-m * ratio) with hA
  have hApos : 0 < A := by rw [hA]; exact mul_pos (by positivity) (Real.exp_pos _)
  have hmeet : A * ((r * ratio) / r - 1) ^ 2 = Real.exp (-(r * ratio) * m / r) := by
    have e1 : (r * ratio) / r = ratio := by field_simp
    have e2 : -(r * ratio) * m / r = -m * ratio := by field_simp
    rw [e1, e2, hA, mul_right_comm, one_div, inv_mul_cancel₀ hq.ne', one_mul]
  have hdown : ∀ x y, x ≤ y → y ≤ r → r * ratio ≤ x → A * (y / r - 1) ^ 2 ≤ A * (x / r - 1) ^ 2 := by
    intro x y hxy hy _
    refine mul_le_mul_of_nonneg_left ?_ hApos.le
    have ha : x / r ≤ y / r := div_le_div_of_nonneg_right hxy hr.le
    have hb : y / r ≤ 1 := by rw [div_le_one hr]; exact hy
    nlinarith
  have hexp : ∀ x y, x ≤ y → Real.exp (-y * m / r) ≤ Real.exp (-x * m / r) := by
    intro x y h
    rw [Real.exp_le_exp]
    apply div_le_div_of_nonneg_right _ hr.le
    nlinarith
  have hnn : ∀ x, 0 ≤ mixS m ratio r x := by
    intro x
    unfold mixS
    split_ifs
    · exact (Real.exp_pos _).le
    · exact mul_nonneg hApos.le (sq_nonneg _)
    · exact le_refl _
  have hanti : AntitoneOn (mixS m ratio r) (Ici 0) := by
    intro x hx y hy hxy
    by_cases y1 : y ≤ r * ratio
    · unfold mixS
      rw [if_pos y1, if_pos (le_trans hxy y1)]
      exact hexp x y hxy
    · by_cases y2 : y ≤ r
      · by_cases x1 : x ≤ r * ratio
        · unfold mixS
          rw [if_neg y1, if_pos y2, if_pos x1]
          refine le_trans (hdown (r * ratio) y (not_le.1 y1).le y2 (le_refl _)) ?_
          rw [hmeet]
          exact hexp x _ x1
        · unfold mixS
          rw [if_neg y1, if_pos y2, if_neg x1, if_pos (le_trans hxy y2)]
          exact hdown x y hxy y2 (not_le.1 x1).le
      · have : mixS m ratio r y = 0 := by unfold mixS; rw [if_neg y1, if_neg y2]
        rw [this]; exact hnn x
  refine ⟨?_, hanti, fun x hx => ⟨hnn x, ?_⟩, fun x hx => ?_, fun x hx => ?_⟩
  · have : mixS m ratio r = fun x => if x ≤ r * ratio then Real.exp (-x * m / r)
        else if x ≤ r then A * (x / r - 1) ^ 2 else 0 := by funext x; rfl
    rw [this]
    refine Continuous.if_le (by fun_prop) ?_ continuous_id continuous_const ?_
    · refine Continuous.if_le (by fun_prop) continuous_const continuous_id continuous_const ?_
      intro x hx
      have hx : x = r := hx
      rw [hx, div_self hr.ne']; norm_num
    · intro x hx
      have hx : x = r * ratio := hx
      subst hx
      rw [if_pos hrr.le, hmeet]
  · have h2 := hanti (mem_Ici.2 (le_refl (0 : ℝ))) hx hx
    have h3 : mixS m ratio r 0 = 1 := by
      unfold mixS
      rw [if_pos (by positivity)]
      norm_num
    rw [h3] at h2; exact h2
  · unfold mixS
    rw [if_neg (not_le.2 (lt_of_lt_of_le hrr hx))]
    split_ifs with h
    · have : x = r := le_antisymm h hx
      rw [this, div_self hr.ne']; norm_num
    · rfl
  · unfold mixS
    split_ifs with a b
    · exact Real.exp_pos _
    · have : x / r < 1 := by rw [div_lt_one hr]; exact hx
      have : x / r - 1 ≠ 0 := by intro h'; linarith
      positivity
    · exact absurd hx.le b

/-- The radius of the mixed method: the distance after the required number of stations when the last of them is beyond
the CDD; the CDD when the tenth station is beyond it; the eleventh distance otherwise. -/
theorem mix_radius (q : Fin 10) (cdd : ℝ) (d : Fin 11 → ℝ) (hd : Monotone d) :
    (Spec.within cdd d ≤ q → mixRadius q cdd d = d q.succ) ∧
    (q < Spec.within cdd d → Spec.within cdd d ≤ 9 → mixRadius q cdd d = cdd) ∧
    (q < Spec.within cdd d → 10 ≤ Spec.within cdd d → mixRadius q cdd d = d 10) := by
  have hq := within_le_iff cdd d hd q.castSucc
  have h9 := within_le_iff cdd d hd 9
  have e9 : ((9 : Fin 11) : Nat) = 9 := rfl
  rw [e9] at h9
  rw [Fin.val_castSucc] at hq
  unfold mixRadius
  refine ⟨fun h => ?_, fun h h' => ?_, fun h h' => ?_⟩
  · rw [if_pos (hq.1 h)]
  · rw [if_neg (fun hh => by have := hq.2 hh; omega), if_pos (h9.1 h')]
  · rw [if_neg (fun hh => by have := hq.2 hh; omega), if_neg (fun hh => by have := h9.2 hh; omega)]

/-- Non-vacuity: distances 1, ..., 11 and a CDD of 5; the jump of the Hofstra weight at the CDD. -/
example : 0 < hofstraS 5 Demo.dist11 4 ∧ hofstraS 5 Demo.dist11 5 = 0 ∧ mixS 4 (1 / 3) 6 6 = 0 := by
  have h := (hofstra_weight 5 (by norm_num) Demo.dist11 Demo.dist11_mono (by unfold Demo.dist11; norm_num)).1
    (by unfold Demo.dist11; norm_num)
  refine ⟨((h 4).1 (by unfold Demo.dist11; norm_num)).1, (h 5).2.1 (by unfold Demo.dist11; norm_num), ?_⟩
  exact (mix_weight 4 (1 / 3) 6 (by norm_num) (by norm_num) (by norm_num) (by norm_num)).2.2.2.1 6 (le_refl _)

end PyG2P
