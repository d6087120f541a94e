import Verif.Model.ScipyGeom
import Verif.Props.ScipyNear
import Mathlib.Tactic.FieldSimp
import Mathlib.Tactic.LinearCombination

/-! # C72–C75: plane geometry of the bilinear and triangulation methods -/

namespace PyG2P
open ScipyLib

namespace Spec

/-- `p` is the mean of the points with the given weights. -/
def IsMean (p : Pt) (l : List (ℚ × Pt)) : Prop :=
  (∀ x ∈ l, 0 ≤ x.1) ∧ (l.map (·.1)).sum = 1 ∧ (l.map fun x => x.1 * x.2.lat).sum = p.lat ∧
    (l.map fun x => x.1 * x.2.lon).sum = p.lon

/-- The closed triangle: all means of the corners. -/
def InTriangle (p v1 v2 v3 : Pt) : Prop := ∃ a b c : ℚ, IsMean p [(a, v1), (b, v2), (c, v3)]

/-- The convex hull of four points. -/
def InHull4 (p v1 v2 v3 v4 : Pt) : Prop := ∃ a b c d : ℚ, IsMean p [(a, v1), (b, v2), (c, v3), (d, v4)]

/-- The three points lie on a line. -/
def Collinear (v1 v2 v3 : Pt) : Prop :=
  (v2.lat - v1.lat) * (v3.lon - v1.lon) = (v3.lat - v1.lat) * (v2.lon - v1.lon)

/-- The diagonals `p1 p3` and `p2 p4` have a common point inside both, and do not lie on one line. -/
def DiagonalsCross (p1 p2 p3 p4 : Pt) : Prop :=
  ∃ t u : ℚ, (0 < t ∧ t < 1) ∧ (0 < u ∧ u < 1) ∧
    (1 - t) * p1.lat + t * p3.lat = (1 - u) * p2.lat + u * p4.lat ∧
    (1 - t) * p1.lon + t * p3.lon = (1 - u) * p2.lon + u * p4.lon ∧ ¬ Collinear p1 p2 p3

end Spec

/-! ## C74: point in triangle -/

theorem IsMean3_iff (p v1 v2 v3 : Pt) (a b c : ℚ) : Spec.IsMean p [(a, v1), (b, v2), (c, v3)] ↔
    (0 ≤ a ∧ 0 ≤ b ∧ 0 ≤ c) ∧ a + b + c = 1 ∧ a * v1.lat + b * v2.lat + c * v3.lat = p.lat ∧
      a * v1.lon + b * v2.lon + c * v3.lon = p.lon := by
  simp [Spec.IsMean, add_assoc]

theorem IsMean4_iff (p v1 v2 v3 v4 : Pt) (a b c d : ℚ) : Spec.IsMean p [(a, v1), (b, v2), (c, v3), (d, v4)] ↔
    (0 ≤ a ∧ 0 ≤ b ∧ 0 ≤ c ∧ 0 ≤ d) ∧ a + b + c + d = 1 ∧
      a * v1.lat + b * v2.lat + c * v3.lat + d * v4.lat = p.lat ∧
      a * v1.lon + b * v2.lon + c * v3.lon + d * v4.lon = p.lon := by
  simp [Spec.IsMean, add_assoc]

theorem inTriangle_signs (pt v1 v2 v3 : Pt) : inTriangle pt v1 v2 v3 = true ↔
    (0 ≤ side pt v1 v2 ∧ 0 ≤ side pt v2 v3 ∧ 0 ≤ side pt v3 v1) ∨
    (side pt v1 v2 ≤ 0 ∧ side pt v2 v3 ≤ 0 ∧ side pt v3 v1 ≤ 0) := by
  unfold inTriangle
  dsimp only
  generalize side pt v1 v2 = d1
  generalize side pt v2 v3 = d2
  generalize side pt v3 v1 = d3
  simp only [Bool.not_eq_true', Bool.and_eq_false_iff, Bool.or_eq_false_iff, decide_eq_false_iff_not, not_lt, and_assoc]

/-- Twice the signed area of a triangle. -/
def area2 (v1 v2 v3 : Pt) : ℚ := (v2.lat - v1.lat) * (v3.lon - v1.lon) - (v3.lat - v1.lat) * (v2.lon - v1.lon)

theorem side_sum (pt v1 v2 v3 : Pt) : side pt v1 v2 + side pt v2 v3 + side pt v3 v1 = area2 v1 v2 v3 := by
  unfold side area2; ring

theorem collinear_iff (v1 v2 v3 : Pt) : Spec.Collinear v1 v2 v3 ↔ area2 v1 v2 v3 = 0 := by
  unfold Spec.Collinear area2; rw [sub_eq_zero]

/-- The three sides of a point given by its weights. -/
theorem side_mean {pt v1 v2 v3 : Pt} {a b c : ℚ} (hs : a + b + c = 1)
    (h1 : a * v1.lat + b * v2.lat + c * v3.lat = pt.lat) (h2 : a * v1.lon + b * v2.lon + c * v3.lon = pt.lon) :
    side pt v1 v2 = c * area2 v1 v2 v3 ∧ side pt v2 v3 = a * area2 v1 v2 v3 ∧ side pt v3 v1 = b * area2 v1 v2 v3 := by
  obtain rfl : c = 1 - a - b := by linarith
  unfold side area2
  rw [← h1, ← h2]
  refine ⟨by ring, by ring, by ring⟩

/-- Every point is a combination of the corners of a proper triangle, with these weights. -/
theorem mean_side (pt v1 v2 v3 : Pt) (h : area2 v1 v2 v3 ≠ 0) :
    side pt v2 v3 / area2 v1 v2 v3 + side pt v3 v1 / area2 v1 v2 v3 + side pt v1 v2 / area2 v1 v2 v3 = 1 ∧
    side pt v2 v3 / area2 v1 v2 v3 * v1.lat + side pt v3 v1 / area2 v1 v2 v3 * v2.lat +
      side pt v1 v2 / area2 v1 v2 v3 * v3.lat = pt.lat ∧
    side pt v2 v3 / area2 v1 v2 v3 * v1.lon + side pt v3 v1 / area2 v1 v2 v3 * v2.lon +
      side pt v1 v2 / area2 v1 v2 v3 * v3.lon = pt.lon := by
  refine ⟨?_, ?_, ?_⟩
  · rw [← add_div, ← add_div, div_eq_one_iff_eq h, ← side_sum pt]; ring
  · field_simp
    unfold side area2; ring
  · field_simp
    unfold side area2; ring

/-- **C74** (the part that holds). For three points that are not on a line, in either orientation, the test accepts
exactly the points of the closed triangle. What is missing: points on a line (`triangle_test_degenerate`). -/
theorem triangle_test_partial (pt v1 v2 v3 : Pt) (h : ¬ Spec.Collinear v1 v2 v3) :
    inTriangle pt v1 v2 v3 = true ↔ Spec.InTriangle pt v1 v2 v3 := by
  rw [collinear_iff] at h
  rw [inTriangle_signs]
  unfold Spec.InTriangle
  simp only [IsMean3_iff]
  have hsum := side_sum pt v1 v2 v3
  constructor
  · intro hs
    obtain ⟨e1, e2, e3⟩ := mean_side pt v1 v2 v3 h
    refine ⟨_, _, _, ?_, e1, e2, e3⟩
    rcases hs with ⟨h1, h2, h3⟩ | ⟨h1, h2, h3⟩
    · have hD : 0 ≤ area2 v1 v2 v3 := by linarith
      exact ⟨div_nonneg h2 hD, div_nonneg h3 hD, div_nonneg h1 hD⟩
    · have hD : area2 v1 v2 v3 ≤ 0 := by linarith
      exact ⟨div_nonneg_of_nonpos h2 hD, div_nonneg_of_nonpos h3 hD, div_nonneg_of_nonpos h1 hD⟩
  · rintro ⟨a, b, c, ⟨ha, hb, hc⟩, hs, h1, h2⟩
    obtain ⟨e1, e2, e3⟩ := side_mean hs h1 h2
    rw [e1, e2, e3]
    rcases le_total 0 (area2 v1 v2 v3) with hD | hD
    · left; exact ⟨mul_nonneg hc hD, mul_nonneg ha hD, mul_nonneg hb hD⟩
    · right; exact ⟨mul_nonpos_of_nonneg_of_nonpos hc hD, mul_nonpos_of_nonneg_of_nonpos ha hD,
        mul_nonpos_of_nonneg_of_nonpos hb hD⟩

/-- C74 is false for three points on a line: every point of the line is accepted, and every point of the plane when
the three coincide. -/
theorem triangle_test_degenerate (v1 v2 v3 : Pt) (pt : Pt)
    (h12 : Spec.Collinear v1 v2 pt) (h23 : Spec.Collinear v2 v3 pt) (h31 : Spec.Collinear v3 v1 pt) :
    inTriangle pt v1 v2 v3 = true := by
  rw [inTriangle_signs]
  left
  unfold Spec.Collinear at h12 h23 h31
  unfold side
  refine ⟨le_of_eq ?_, le_of_eq ?_, le_of_eq ?_⟩ <;> linarith

/-- … for instance a point outside the three. -/
theorem triangle_test_false : inTriangle ⟨5, 0⟩ ⟨0, 0⟩ ⟨1, 0⟩ ⟨2, 0⟩ = true ∧
    ¬ Spec.InTriangle ⟨5, 0⟩ ⟨0, 0⟩ ⟨1, 0⟩ ⟨2, 0⟩ := by
  refine ⟨by decide +kernel, ?_⟩
  rintro ⟨a, b, c, h⟩
  rw [IsMean3_iff] at h
  obtain ⟨⟨ha, hb, hc⟩, hs, h1, -⟩ := h
  dsimp only at h1
  linarith

/-- The test for convexity accepts exactly the proper quadrilaterals whose diagonals cross in a point that is inside
both. -/
theorem convex_test (p1 p2 p3 p4 : Pt) : isConvex p1 p2 p3 p4 = true ↔ Spec.DiagonalsCross p1 p2 p3 p4 := by
  unfold isConvex segmentsMeet Spec.DiagonalsCross
  dsimp only
  set rxs := cross (p3.lat - p1.lat, p3.lon - p1.lon) (p4.lat - p2.lat, p4.lon - p2.lon) with hr
  unfold cross at hr ⊢
  dsimp only at hr ⊢
  by_cases h0 : rxs = 0
  · rw [if_pos h0]
    simp only [Bool.false_eq_true, false_iff]
    rintro ⟨t, u, ht, hu, e1, e2, hc⟩
    apply hc
    unfold Spec.Collinear
    have d1 : p2.lat - p1.lat = t * (p3.lat - p1.lat) - u * (p4.lat - p2.lat) := by linarith
    have d2 : p2.lon - p1.lon = t * (p3.lon - p1.lon) - u * (p4.lon - p2.lon) := by linarith
    rw [d1, d2]
    rw [h0] at hr
    linear_combination -u * hr
  · rw [if_neg h0]
    simp only [Bool.and_eq_true, decide_eq_true_eq]
    constructor
    · rintro ⟨ht, hu⟩
      refine ⟨_, _, ht, hu, ?_, ?_, ?_⟩
      · field_simp
        rw [hr]; ring
      · field_simp
        rw [hr]; ring
      · intro hc
        unfold Spec.Collinear at hc
        have : ((p2.lat - p1.lat) * (p3.lon - p1.lon) - (p2.lon - p1.lon) * (p3.lat - p1.lat)) / rxs = 0 := by
          rw [div_eq_zero_iff]; left; linarith
        rw [this] at hu
        exact lt_irrefl _ hu.1
    · rintro ⟨t, u, ht, hu, e1, e2, hc⟩
      have d1 : p2.lat - p1.lat = t * (p3.lat - p1.lat) - u * (p4.lat - p2.lat) := by linarith
      have d2 : p2.lon - p1.lon = t * (p3.lon - p1.lon) - u * (p4.lon - p2.lon) := by linarith
      have et : ((p2.lat - p1.lat) * (p4.lon - p2.lon) - (p2.lon - p1.lon) * (p4.lat - p2.lat)) / rxs = t := by
        rw [div_eq_iff h0, d1, d2, hr]; ring
      have eu : ((p2.lat - p1.lat) * (p3.lon - p1.lon) - (p2.lon - p1.lon) * (p3.lat - p1.lat)) / rxs = u := by
        rw [div_eq_iff h0, d1, d2, hr]; ring
      rw [et, eu]
      exact ⟨ht, hu⟩

/-- **C74**, quadrilaterals: when the quadrilateral passes the test for convexity, the test for a point in it accepts
exactly the points of the convex hull of its corners. -/
theorem quadrilateral_test (pt p1 p2 p3 p4 : Pt) (h : isConvex p1 p2 p3 p4 = true) :
    inQuadrilateral pt p1 p2 p3 p4 = true ↔ Spec.InHull4 pt p1 p2 p3 p4 := by
  rw [convex_test] at h
  obtain ⟨t, u, ⟨ht, ht1⟩, ⟨hu, hu1⟩, e1, e2, hc⟩ := h
  have hc' : ¬ Spec.Collinear p1 p4 p3 := by
    intro h4
    apply hc
    unfold Spec.Collinear at h4 ⊢
    have q1 : (1 - u) * (p2.lat - p1.lat) = t * (p3.lat - p1.lat) - u * (p4.lat - p1.lat) := by linarith
    have q2 : (1 - u) * (p2.lon - p1.lon) = t * (p3.lon - p1.lon) - u * (p4.lon - p1.lon) := by linarith
    have : (1 - u) * ((p2.lat - p1.lat) * (p3.lon - p1.lon)) = (1 - u) * ((p3.lat - p1.lat) * (p2.lon - p1.lon)) := by
      linear_combination (p3.lon - p1.lon) * q1 - (p3.lat - p1.lat) * q2 - u * h4
    exact mul_left_cancel₀ (by linarith) this
  unfold inQuadrilateral
  rw [Bool.or_eq_true, triangle_test_partial pt p1 p2 p3 hc, triangle_test_partial pt p1 p4 p3 hc']
  unfold Spec.InTriangle Spec.InHull4
  simp only [IsMean3_iff, IsMean4_iff]
  constructor
  · rintro (⟨a, b, c, ⟨ha, hb, hc⟩, hs, h1, h2⟩ | ⟨a, b, c, ⟨ha, hb, hc⟩, hs, h1, h2⟩)
    · exact ⟨a, b, c, 0, ⟨ha, hb, hc, le_refl _⟩, by linarith, by linarith, by linarith⟩
    · exact ⟨a, 0, c, b, ⟨ha, le_refl _, hc, hb⟩, by linarith, by linarith, by linarith⟩
  · rintro ⟨a, b, c, d, ⟨ha, hb, hc, hd⟩, hs, h1, h2⟩
    have hu' : 0 < 1 - u := by linarith
    have ht' : 0 < 1 - t := by linarith
    rcases le_total (d * (1 - u)) (b * u) with hle | hle
    · left
      refine ⟨a + d * (1 - t) / u, (b * u - d * (1 - u)) / u, c + d * t / u, ⟨by positivity, ?_, by positivity⟩, ?_, ?_,
        ?_⟩
      · exact div_nonneg (by linarith) hu.le
      · field_simp
        linear_combination u * hs
      · rw [← h1]
        field_simp
        linear_combination d * e1
      · rw [← h2]
        field_simp
        linear_combination d * e2
    · right
      refine ⟨a + b * (1 - t) / (1 - u), (d * (1 - u) - b * u) / (1 - u), c + b * t / (1 - u),
        ⟨by positivity, ?_, by positivity⟩, ?_, ?_, ?_⟩
      · exact div_nonneg (by linarith) hu'.le
      · field_simp
        linear_combination (1 - u) * hs
      · rw [← h1]
        field_simp
        linear_combination b * e1
      · rw [← h2]
        field_simp
        linear_combination b * e2

/-! ## C72: bilinear weights -/

theorem clip01_bounds (x : ℚ) : 0 ≤ clip01 x ∧ clip01 x ≤ 1 := by
  unfold clip01
  exact ⟨le_min (le_max_right _ _) (by norm_num), min_le_right _ _⟩

theorem clip01_id {x : ℚ} (h : 0 ≤ x ∧ x ≤ 1) : clip01 x = x := by
  unfold clip01
  rw [max_eq_left h.1, min_eq_left h.2]

/-- **C72.** Whatever root the solver returns, the weights are not negative and sum to one, so a constant field is
reproduced and the value lies between the bounds of the four corner values. For a root within the unit square: the
four corners of the square give the four corner values, and if the root is exact the weights reproduce the latitude,
the longitude and every field that is affine in them. -/
theorem bilinear_weights (root : ℚ × ℚ) (p1 p2 p3 p4 t : Pt) (z1 z2 z3 z4 : ℚ) :
    ∃ w1 w2 w3 w4, bilinearWeights root = (w1, w2, w3, w4) ∧ 0 ≤ w1 ∧ 0 ≤ w2 ∧ 0 ≤ w3 ∧ 0 ≤ w4 ∧
      w1 + w2 + w3 + w4 = 1 ∧
      (∀ z, w1 * z + w2 * z + w3 * z + w4 * z = z) ∧
      (∀ lo hi, lo ≤ z1 ∧ z1 ≤ hi → lo ≤ z2 ∧ z2 ≤ hi → lo ≤ z3 ∧ z3 ≤ hi → lo ≤ z4 ∧ z4 ≤ hi →
        lo ≤ w1 * z1 + w2 * z2 + w3 * z3 + w4 * z4 ∧ w1 * z1 + w2 * z2 + w3 * z3 + w4 * z4 ≤ hi) ∧
      (root = (0, 0) → w1 * z1 + w2 * z2 + w3 * z3 + w4 * z4 = z1) ∧
      (root = (1, 0) → w1 * z1 + w2 * z2 + w3 * z3 + w4 * z4 = z2) ∧
      (root = (1, 1) → w1 * z1 + w2 * z2 + w3 * z3 + w4 * z4 = z3) ∧
      (root = (0, 1) → w1 * z1 + w2 * z2 + w3 * z3 + w4 * z4 = z4) ∧
      (0 ≤ root.1 ∧ root.1 ≤ 1 → 0 ≤ root.2 ∧ root.2 ≤ 1 → alphaBeta t p1 p2 p3 p4 root = (0, 0) →
        ∀ A B C : ℚ, w1 * (A * p1.lat + B * p1.lon + C) + w2 * (A * p2.lat + B * p2.lon + C) +
          w3 * (A * p3.lat + B * p3.lon + C) + w4 * (A * p4.lat + B * p4.lon + C) = A * t.lat + B * t.lon + C) := by
  obtain ⟨a0, a1⟩ := clip01_bounds root.1
  obtain ⟨b0, b1⟩ := clip01_bounds root.2
  have h1 : 0 ≤ (1 - clip01 root.1) * (1 - clip01 root.2) := mul_nonneg (by linarith) (by linarith)
  have h2 : 0 ≤ clip01 root.1 * (1 - clip01 root.2) := mul_nonneg (by linarith) (by linarith)
  have h3 : 0 ≤ clip01 root.1 * clip01 root.2 := mul_nonneg (by linarith) (by linarith)
  have h4 : 0 ≤ (1 - clip01 root.1) * clip01 root.2 := mul_nonneg (by linarith) (by linarith)
  have hsum : (1 - clip01 root.1) * (1 - clip01 root.2) + clip01 root.1 * (1 - clip01 root.2) +
      clip01 root.1 * clip01 root.2 + (1 - clip01 root.1) * clip01 root.2 = 1 := by ring
  refine ⟨_, _, _, _, rfl, h1, h2, h3, h4, hsum, fun z => by linear_combination z * hsum, ?_, ?_, ?_, ?_, ?_, ?_⟩
  · intro lo hi k1 k2 k3 k4
    generalize (1 - clip01 root.1) * (1 - clip01 root.2) = w1 at *
    generalize clip01 root.1 * (1 - clip01 root.2) = w2 at *
    generalize clip01 root.1 * clip01 root.2 = w3 at *
    generalize (1 - clip01 root.1) * clip01 root.2 = w4 at *
    constructor
    · have := mul_le_mul_of_nonneg_left k1.1 h1
      have := mul_le_mul_of_nonneg_left k2.1 h2
      have := mul_le_mul_of_nonneg_left k3.1 h3
      have := mul_le_mul_of_nonneg_left k4.1 h4
      have e : w1 * lo + w2 * lo + w3 * lo + w4 * lo = lo := by linear_combination lo * hsum
      linarith
    · have := mul_le_mul_of_nonneg_left k1.2 h1
      have := mul_le_mul_of_nonneg_left k2.2 h2
      have := mul_le_mul_of_nonneg_left k3.2 h3
      have := mul_le_mul_of_nonneg_left k4.2 h4
      have e : w1 * hi + w2 * hi + w3 * hi + w4 * hi = hi := by linear_combination hi * hsum
      linarith
  · rintro rfl; simp [clip01]
  · rintro rfl; simp [clip01]
  · rintro rfl; simp [clip01]
  · rintro rfl; simp [clip01]
  · intro ha hb hab A B C
    rw [clip01_id ha, clip01_id hb]
    unfold alphaBeta at hab
    dsimp only at hab
    obtain ⟨e1, e2⟩ := Prod.mk.inj hab
    linear_combination A * e1 + B * e2

theorem diagonalsCross_rotate {p1 p2 p3 p4 : Pt} (h : Spec.DiagonalsCross p1 p2 p3 p4) :
    Spec.DiagonalsCross p2 p3 p4 p1 := by
  obtain ⟨t, u, ⟨ht, ht1⟩, ⟨hu, hu1⟩, e1, e2, hc⟩ := h
  refine ⟨u, 1 - t, ⟨hu, hu1⟩, ⟨by linarith, by linarith⟩, by linarith, by linarith, fun h => hc ?_⟩
  unfold Spec.Collinear at h ⊢
  have : (1 - t) * ((p2.lat - p1.lat) * (p3.lon - p1.lon)) = (1 - t) * ((p3.lat - p1.lat) * (p2.lon - p1.lon)) := by
    linear_combination u * h - (p3.lon - p2.lon) * e1 + (p3.lat - p2.lat) * e2
  exact mul_left_cancel₀ (by linarith) this

/-- A corner of a convex quadrilateral is no mean of the corners except by itself. -/
theorem extreme_corner {p1 p2 p3 p4 : Pt} (h : Spec.DiagonalsCross p1 p2 p3 p4) {w1 w2 w3 w4 : ℚ}
    (hm : Spec.IsMean p1 [(w1, p1), (w2, p2), (w3, p3), (w4, p4)]) : w1 = 1 := by
  obtain ⟨t, u, ⟨ht, ht1⟩, ⟨hu, hu1⟩, e1, e2, hc⟩ := h
  rw [IsMean4_iff] at hm
  obtain ⟨⟨h1, h2, h3, h4⟩, hs, m1, m2⟩ := hm
  have hA : area2 p1 p2 p4 ≠ 0 := by
    intro h0
    apply hc
    rw [collinear_iff]
    have : t * area2 p1 p2 p3 = u * area2 p1 p2 p4 := by
      unfold area2
      linear_combination (p1.lon - p2.lon) * e1 + (p2.lat - p1.lat) * e2
    rw [h0, mul_zero] at this
    rcases mul_eq_zero.1 this with h | h
    · linarith
    · exact h
  -- distance from the line p2 p4
  have k : (w1 * t - w3 * (1 - t) - t) * area2 p1 p2 p4 = 0 := by
    obtain rfl : w2 = 1 - w1 - w3 - w4 := by linarith
    unfold area2
    linear_combination t * ((p2.lon - p4.lon) * m1 + (p4.lat - p2.lat) * m2) -
      w3 * ((p2.lon - p4.lon) * e1 + (p4.lat - p2.lat) * e2)
  rcases mul_eq_zero.1 k with k | k
  · have : 0 ≤ w3 * (1 - t) := mul_nonneg h3 (by linarith)
    nlinarith
  · exact absurd k hA

/-- **C72**, at a corner: in a convex quadrilateral, the only exact root within the unit square for a target on a
corner is the corresponding corner of the square, so the target takes the value of that corner. -/
theorem bilinear_at_corner (p1 p2 p3 p4 : Pt) (h : isConvex p1 p2 p3 p4 = true) (root : ℚ × ℚ)
    (ha : 0 ≤ root.1 ∧ root.1 ≤ 1) (hb : 0 ≤ root.2 ∧ root.2 ≤ 1) :
    (alphaBeta p1 p1 p2 p3 p4 root = (0, 0) → root = (0, 0)) ∧
    (alphaBeta p2 p1 p2 p3 p4 root = (0, 0) → root = (1, 0)) ∧
    (alphaBeta p3 p1 p2 p3 p4 root = (0, 0) → root = (1, 1)) ∧
    (alphaBeta p4 p1 p2 p3 p4 root = (0, 0) → root = (0, 1)) := by
  rw [convex_test] at h
  have g2 := diagonalsCross_rotate h
  have g3 := diagonalsCross_rotate g2
  have g4 := diagonalsCross_rotate g3
  obtain ⟨a, b⟩ := root
  dsimp only at ha hb
  unfold alphaBeta
  dsimp only
  have k1 : 0 ≤ (1 - a) * (1 - b) := mul_nonneg (by linarith) (by linarith)
  have k2 : 0 ≤ a * (1 - b) := mul_nonneg (by linarith) (by linarith)
  have k3 : 0 ≤ a * b := mul_nonneg (by linarith) (by linarith)
  have k4 : 0 ≤ (1 - a) * b := mul_nonneg (by linarith) (by linarith)
  refine ⟨fun hr => ?_, fun hr => ?_, fun hr => ?_, fun hr => ?_⟩ <;> obtain ⟨e1, e2⟩ := Prod.mk.inj hr
  · have := extreme_corner h (w1 := (1 - a) * (1 - b)) (w2 := a * (1 - b)) (w3 := a * b) (w4 := (1 - a) * b)
      ((IsMean4_iff _ _ _ _ _ _ _ _ _).2 ⟨⟨k1, k2, k3, k4⟩, by ring, by linarith, by linarith⟩)
    have ea : a = 0 := by nlinarith
    have eb : b = 0 := by nlinarith
    rw [ea, eb]
  · have := extreme_corner g2 (w1 := a * (1 - b)) (w2 := a * b) (w3 := (1 - a) * b) (w4 := (1 - a) * (1 - b))
      ((IsMean4_iff _ _ _ _ _ _ _ _ _).2 ⟨⟨k2, k3, k4, k1⟩, by ring, by linarith, by linarith⟩)
    have ea : a = 1 := by nlinarith
    have eb : b = 0 := by nlinarith
    rw [ea, eb]
  · have := extreme_corner g3 (w1 := a * b) (w2 := (1 - a) * b) (w3 := (1 - a) * (1 - b)) (w4 := a * (1 - b))
      ((IsMean4_iff _ _ _ _ _ _ _ _ _).2 ⟨⟨k3, k4, k1, k2⟩, by ring, by linarith, by linarith⟩)
    have ea : a = 1 := by nlinarith
    have eb : b = 1 := by nlinarith
    rw [ea, eb]
  · have := extreme_corner g4 (w1 := (1 - a) * b) (w2 := (1 - a) * (1 - b)) (w3 := a * (1 - b)) (w4 := a * b)
      ((IsMean4_iff _ _ _ _ _ _ _ _ _).2 ⟨⟨k4, k1, k2, k3⟩, by ring, by linarith, by linarith⟩)
    have ea : a = 0 := by nlinarith
    have eb : b = 1 := by nlinarith
    rw [ea, eb]

/-! ## C73: order of the corners -/

/-- **C73.** For any four corners the function returns the same four points in some order `p1, p2, p3, p4`, where `p1`
is not north of `p4` and `p2` is not north of `p3`, and neither `p1` nor `p4` comes after `p2` or `p3` from west to
east (latitude counting one thousandth of longitude). -/
theorem corners_permuted (l : List Corner) (hl : l.length = 4) :
    ∃ p1 p2 p3 p4, clockwise l = some (p1, p2, p3, p4) ∧ [p1, p2, p3, p4].Perm l ∧
      p1.pt.lat ≤ p4.pt.lat ∧ p2.pt.lat ≤ p3.pt.lat ∧
      ∀ a ∈ [p1, p4], ∀ b ∈ [p2, p3], a.pt.lon + a.pt.lat / 1000 ≤ b.pt.lon + b.pt.lat / 1000 := by
  unfold clockwise
  have hp := List.perm_insertionSort (fun a b : Corner => cornerKey a ≤ cornerKey b) l
  have hs : (l.insertionSort fun a b : Corner => cornerKey a ≤ cornerKey b).Pairwise
      (fun a b => cornerKey a ≤ cornerKey b) := by
    have : Std.Total (fun a b : Corner => cornerKey a ≤ cornerKey b) := ⟨fun a b => le_total _ _⟩
    have : IsTrans Corner (fun a b : Corner => cornerKey a ≤ cornerKey b) := ⟨fun a b c => le_trans⟩
    exact List.pairwise_insertionSort _ _
  have hlen := hp.length_eq
  rw [hl] at hlen
  generalize (l.insertionSort fun a b : Corner => cornerKey a ≤ cornerKey b) = m at *
  obtain ⟨l0, l1, r0, r1, rfl⟩ : ∃ l0 l1 r0 r1, m = [l0, l1, r0, r1] := by
    match m, hlen with
    | [l0, l1, r0, r1], _ => exact ⟨l0, l1, r0, r1, rfl⟩
  simp only [List.pairwise_cons, List.mem_cons, List.not_mem_nil, or_false, forall_eq_or_imp, forall_eq, cornerKey] at hs
  obtain ⟨⟨a1, a2, a3⟩, ⟨b1, b2⟩, -, -⟩ := hs
  unfold clockwiseSorted
  dsimp only
  by_cases h1 : l0.pt.lat ≤ l1.pt.lat <;> by_cases h2 : r0.pt.lat ≤ r1.pt.lat
  · rw [if_pos h1, if_pos h2]
    refine ⟨l0, r0, r1, l1, rfl, ?_, h1, h2, ?_⟩
    · refine List.Perm.trans ?_ hp
      exact (List.Perm.cons _ (List.perm_append_comm (l₁ := [r0, r1]) (l₂ := [l1])))
    · intro a ha b hb
      simp only [List.mem_cons, List.not_mem_nil, or_false] at ha hb
      rcases ha with rfl | rfl <;> rcases hb with rfl | rfl <;> linarith
  · rw [if_pos h1, if_neg h2]
    refine ⟨l0, r1, r0, l1, rfl, ?_, h1, (not_le.1 h2).le, ?_⟩
    · refine List.Perm.trans ?_ hp
      refine List.Perm.cons _ (List.Perm.trans (List.perm_append_comm (l₁ := [r1, r0]) (l₂ := [l1])) ?_)
      exact List.Perm.cons _ (List.Perm.swap _ _ _)
    · intro a ha b hb
      simp only [List.mem_cons, List.not_mem_nil, or_false] at ha hb
      rcases ha with rfl | rfl <;> rcases hb with rfl | rfl <;> linarith
  · rw [if_neg h1, if_pos h2]
    refine ⟨l1, r0, r1, l0, rfl, ?_, (not_le.1 h1).le, h2, ?_⟩
    · refine List.Perm.trans ?_ hp
      refine List.Perm.trans (List.Perm.cons _ (List.perm_append_comm (l₁ := [r0, r1]) (l₂ := [l0]))) ?_
      exact List.Perm.swap _ _ _
    · intro a ha b hb
      simp only [List.mem_cons, List.not_mem_nil, or_false] at ha hb
      rcases ha with rfl | rfl <;> rcases hb with rfl | rfl <;> linarith
  · rw [if_neg h1, if_neg h2]
    refine ⟨l1, r1, r0, l0, rfl, ?_, (not_le.1 h1).le, (not_le.1 h2).le, ?_⟩
    · refine List.Perm.trans ?_ hp
      refine List.Perm.trans (List.Perm.cons _ (List.perm_append_comm (l₁ := [r1, r0]) (l₂ := [l0]))) ?_
      refine List.Perm.trans (List.Perm.swap _ _ _) ?_
      exact List.Perm.cons _ (List.Perm.cons _ (List.Perm.swap _ _ _))
    · intro a ha b hb
      simp only [List.mem_cons, List.not_mem_nil, or_false] at ha hb
      rcases ha with rfl | rfl <;> rcases hb with rfl | rfl <;> linarith

/-- **C72, C73** on a regular grid: for the corners of a cell of a grid of parallels and meridians, given in any order,
with sides of comparable size, the order is south-west, south-east, north-east, north-west, the quadrilateral is
accepted as convex, the cell's points are accepted, and the only exact root of the equations gives the usual bilinear
weights. -/
theorem bilinear_grid_cell (l : List Corner) (lat0 lat1 lon0 lon1 : ℚ) (i00 i01 i10 i11 : Nat) (hlat : lat0 < lat1)
    (hlon : lon0 < lon1) (hsize : lat1 - lat0 < 1000 * (lon1 - lon0))
    (hl : l.Perm [⟨⟨lat0, lon0⟩, i00⟩, ⟨⟨lat0, lon1⟩, i01⟩, ⟨⟨lat1, lon1⟩, i11⟩, ⟨⟨lat1, lon0⟩, i10⟩]) (t : Pt)
    (ht : lat0 ≤ t.lat ∧ t.lat ≤ lat1) (ht' : lon0 ≤ t.lon ∧ t.lon ≤ lon1) :
    clockwise l = some (⟨⟨lat0, lon0⟩, i00⟩, ⟨⟨lat0, lon1⟩, i01⟩, ⟨⟨lat1, lon1⟩, i11⟩, ⟨⟨lat1, lon0⟩, i10⟩) ∧
    isConvex ⟨lat0, lon0⟩ ⟨lat0, lon1⟩ ⟨lat1, lon1⟩ ⟨lat1, lon0⟩ = true ∧
    inQuadrilateral t ⟨lat0, lon0⟩ ⟨lat0, lon1⟩ ⟨lat1, lon1⟩ ⟨lat1, lon0⟩ = true ∧
    (∀ root, alphaBeta t ⟨lat0, lon0⟩ ⟨lat0, lon1⟩ ⟨lat1, lon1⟩ ⟨lat1, lon0⟩ root = (0, 0) ↔
      root = ((t.lon - lon0) / (lon1 - lon0), (t.lat - lat0) / (lat1 - lat0))) := by
  have dl : (0 : ℚ) < lat1 - lat0 := by linarith
  have dn : (0 : ℚ) < lon1 - lon0 := by linarith
  have hconv : isConvex ⟨lat0, lon0⟩ ⟨lat0, lon1⟩ ⟨lat1, lon1⟩ ⟨lat1, lon0⟩ = true := by
    rw [convex_test]
    refine ⟨1 / 2, 1 / 2, by norm_num, by norm_num, by ring, by ring, ?_⟩
    unfold Spec.Collinear
    dsimp only
    intro h
    have : (lat1 - lat0) * (lon1 - lon0) = 0 := by linarith
    rcases mul_eq_zero.1 this with h | h <;> linarith
  refine ⟨?_, hconv, ?_, ?_⟩
  · have hsort : (l.insertionSort fun a b : Corner => cornerKey a ≤ cornerKey b) =
        [⟨⟨lat0, lon0⟩, i00⟩, ⟨⟨lat1, lon0⟩, i10⟩, ⟨⟨lat0, lon1⟩, i01⟩, ⟨⟨lat1, lon1⟩, i11⟩] := by
      apply List.Perm.eq_of_pairwise (le := fun a b : Corner => cornerKey a ≤ cornerKey b)
      · intro a b ha hb h1 h2
        have ha := (hl.mem_iff).1 ((List.mem_insertionSort _).1 ha)
        simp only [List.mem_cons, List.not_mem_nil, or_false] at ha hb
        unfold cornerKey at h1 h2
        rcases ha with rfl | rfl | rfl | rfl <;> rcases hb with rfl | rfl | rfl | rfl <;>
          first
          | rfl
          | (exfalso; dsimp only at h1 h2; linarith)
      · have : Std.Total (fun a b : Corner => cornerKey a ≤ cornerKey b) := ⟨fun a b => le_total _ _⟩
        have : IsTrans Corner (fun a b : Corner => cornerKey a ≤ cornerKey b) := ⟨fun a b c => le_trans⟩
        exact List.pairwise_insertionSort _ _
      · simp only [List.pairwise_cons, List.mem_cons, List.not_mem_nil, or_false, forall_eq_or_imp, forall_eq, cornerKey,
          false_imp_iff, implies_true, and_true, List.Pairwise.nil]
        refine ⟨⟨?_, ?_, ?_⟩, ⟨?_, ?_⟩, ?_⟩ <;> linarith
      · refine (List.perm_insertionSort _ _).trans (hl.trans (List.Perm.cons _ ?_))
        exact List.perm_append_comm (l₁ := [_, _]) (l₂ := [_])
    unfold clockwise
    rw [hsort]
    unfold clockwiseSorted
    dsimp only
    rw [if_pos hlat.le, if_pos hlat.le]
  · rw [quadrilateral_test _ _ _ _ _ hconv]
    have ha : 0 ≤ (t.lon - lon0) / (lon1 - lon0) := div_nonneg (by linarith) dn.le
    have ha1 : 0 ≤ (lon1 - t.lon) / (lon1 - lon0) := div_nonneg (by linarith) dn.le
    have hb : 0 ≤ (t.lat - lat0) / (lat1 - lat0) := div_nonneg (by linarith) dl.le
    have hb1 : 0 ≤ (lat1 - t.lat) / (lat1 - lat0) := div_nonneg (by linarith) dl.le
    refine ⟨_, _, _, _, (IsMean4_iff _ _ _ _ _ _ _ _ _).2
      ⟨⟨mul_nonneg ha1 hb1, mul_nonneg ha hb1, mul_nonneg ha hb, mul_nonneg ha1 hb⟩, ?_, ?_, ?_⟩⟩ <;>
    · field_simp
      ring
  · rintro ⟨a, b⟩
    unfold alphaBeta
    dsimp only
    rw [Prod.mk.injEq, Prod.mk.injEq, eq_div_iff dn.ne', eq_div_iff dl.ne']
    constructor
    · rintro ⟨h1, h2⟩
      exact ⟨by linarith, by linarith⟩
    · rintro ⟨h1, h2⟩
      exact ⟨by linarith, by linarith⟩

/-! ## C75: triangulation -/

/-- **C75** (weights). For a proper triangle the three weights exist, sum to one, reproduce the target and every affine
field, they are the only ones that do, and they are all non-negative exactly for the targets in the triangle. -/
theorem barycentric_weights (v1 v2 v3 p : Pt) (h : ¬ Spec.Collinear v1 v2 v3) :
    ∃ b1 b2 b3, barycentric v1 v2 v3 p = some (b1, b2, b3) ∧ b1 + b2 + b3 = 1 ∧
      b1 * v1.lat + b2 * v2.lat + b3 * v3.lat = p.lat ∧ b1 * v1.lon + b2 * v2.lon + b3 * v3.lon = p.lon ∧
      (∀ A B C : ℚ, b1 * (A * v1.lat + B * v1.lon + C) + b2 * (A * v2.lat + B * v2.lon + C) +
        b3 * (A * v3.lat + B * v3.lon + C) = A * p.lat + B * p.lon + C) ∧
      (∀ c1 c2 c3, c1 + c2 + c3 = 1 → c1 * v1.lat + c2 * v2.lat + c3 * v3.lat = p.lat →
        c1 * v1.lon + c2 * v2.lon + c3 * v3.lon = p.lon → c1 = b1 ∧ c2 = b2 ∧ c3 = b3) ∧
      (0 ≤ b1 ∧ 0 ≤ b2 ∧ 0 ≤ b3 ↔ Spec.InTriangle p v1 v2 v3) := by
  have hd : (v1.lat - v3.lat) * (v2.lon - v3.lon) - (v2.lat - v3.lat) * (v1.lon - v3.lon) ≠ 0 := by
    intro e
    apply h
    unfold Spec.Collinear
    linarith
  unfold barycentric transform
  dsimp only
  rw [if_neg hd]
  generalize hD : (v1.lat - v3.lat) * (v2.lon - v3.lon) - (v2.lat - v3.lat) * (v1.lon - v3.lon) = D at *
  have key1 : ((v2.lon - v3.lon) / D * (p.lat - v3.lat) + -(v2.lat - v3.lat) / D * (p.lon - v3.lon)) * v1.lat +
      (-(v1.lon - v3.lon) / D * (p.lat - v3.lat) + (v1.lat - v3.lat) / D * (p.lon - v3.lon)) * v2.lat +
      (1 - (((v2.lon - v3.lon) / D * (p.lat - v3.lat) + -(v2.lat - v3.lat) / D * (p.lon - v3.lon)) +
        (-(v1.lon - v3.lon) / D * (p.lat - v3.lat) + (v1.lat - v3.lat) / D * (p.lon - v3.lon)))) * v3.lat = p.lat := by
    field_simp
    rw [← hD]; ring
  have key2 : ((v2.lon - v3.lon) / D * (p.lat - v3.lat) + -(v2.lat - v3.lat) / D * (p.lon - v3.lon)) * v1.lon +
      (-(v1.lon - v3.lon) / D * (p.lat - v3.lat) + (v1.lat - v3.lat) / D * (p.lon - v3.lon)) * v2.lon +
      (1 - (((v2.lon - v3.lon) / D * (p.lat - v3.lat) + -(v2.lat - v3.lat) / D * (p.lon - v3.lon)) +
        (-(v1.lon - v3.lon) / D * (p.lat - v3.lat) + (v1.lat - v3.lat) / D * (p.lon - v3.lon)))) * v3.lon = p.lon := by
    field_simp
    rw [← hD]; ring
  refine ⟨_, _, _, rfl, by ring, key1, key2, fun A B C => by linear_combination A * key1 + B * key2, ?_, ?_⟩
  · intro c1 c2 c3 hs h1 h2
    obtain rfl : c3 = 1 - c1 - c2 := by linarith
    have e1 : c1 = (v2.lon - v3.lon) / D * (p.lat - v3.lat) + -(v2.lat - v3.lat) / D * (p.lon - v3.lon) := by
      rw [← h1, ← h2]; field_simp; rw [← hD]; ring
    have e2 : c2 = -(v1.lon - v3.lon) / D * (p.lat - v3.lat) + (v1.lat - v3.lat) / D * (p.lon - v3.lon) := by
      rw [← h1, ← h2]; field_simp; rw [← hD]; ring
    exact ⟨e1, e2, by rw [← e1, ← e2]; ring⟩
  · constructor
    · intro hn
      exact ⟨_, _, _, (IsMean3_iff _ _ _ _ _ _ _).2 ⟨hn, by ring, key1, key2⟩⟩
    · rintro ⟨c1, c2, c3, hm⟩
      obtain ⟨hn, hs, h1, h2⟩ := (IsMean3_iff _ _ _ _ _ _ _).1 hm
      obtain rfl : c3 = 1 - c1 - c2 := by linarith
      have e1 : c1 = (v2.lon - v3.lon) / D * (p.lat - v3.lat) + -(v2.lat - v3.lat) / D * (p.lon - v3.lon) := by
        rw [← h1, ← h2]; field_simp; rw [← hD]; ring
      have e2 : c2 = -(v1.lon - v3.lon) / D * (p.lat - v3.lat) + (v1.lat - v3.lat) / D * (p.lon - v3.lon) := by
        rw [← h1, ← h2]; field_simp; rw [← hD]; ring
      rw [← e1, ← e2]
      exact ⟨hn.1, hn.2.1, by linarith [hn.2.2]⟩

theorem filter_where (pts : List Pt) (c : ℚ → Bool) (k : Nat) (q : Pt)
    (h : (pts.filter fun p => c p.lon)[k]? = some q) :
    ∃ j, (whereIdx (pts.map (·.lon)) c)[k]? = some j ∧ pts[j]? = some q := by
  have hpts : pts = (List.range pts.length).map fun i => (pts[i]?).getD ⟨0, 0⟩ := by
    apply List.ext_getElem?
    intro i
    rw [List.getElem?_map]
    rcases Nat.lt_or_ge i pts.length with hi | hi
    · rw [List.getElem?_range hi, Option.map_some, List.getElem?_eq_getElem hi]
      rfl
    · rw [List.getElem?_eq_none hi, List.getElem?_eq_none (by simpa using hi)]; rfl
  have hw : whereIdx (pts.map (·.lon)) c =
      (List.range pts.length).filter fun i => c ((pts[i]?).getD ⟨0, 0⟩).lon := by
    unfold whereIdx
    rw [List.length_map]
    apply List.filter_congr
    intro i hi
    have hi := List.mem_range.1 hi
    rw [List.getElem?_map, List.getElem?_eq_getElem hi]
    rfl
  rw [hw]
  have hf : pts.filter (fun p => c p.lon) =
      ((List.range pts.length).filter fun i => c ((pts[i]?).getD ⟨0, 0⟩).lon).map fun i => (pts[i]?).getD ⟨0, 0⟩ := by
    conv_lhs => rw [hpts]
    rw [List.filter_map]
    rfl
  rw [hf, List.getElem?_map] at h
  obtain ⟨j, hj, rfl⟩ := Option.map_eq_some_iff.1 h
  refine ⟨j, hj, ?_⟩
  have := List.mem_of_getElem? hj
  have hjl := List.mem_range.1 (List.mem_filter.1 this).1
  rw [List.getElem?_eq_getElem hjl]; rfl

theorem filter_where_length (pts : List Pt) (c : ℚ → Bool) :
    (whereIdx (pts.map (·.lon)) c).length = (pts.filter fun p => c p.lon).length := by
  have hw : whereIdx (pts.map (·.lon)) c =
      (List.range pts.length).filter fun i => c ((pts[i]?).getD ⟨0, 0⟩).lon := by
    unfold whereIdx
    rw [List.length_map]
    apply List.filter_congr
    intro i hi
    have hi := List.mem_range.1 hi
    rw [List.getElem?_map, List.getElem?_eq_getElem hi]
    rfl
  have hpts : pts = (List.range pts.length).map fun i => (pts[i]?).getD ⟨0, 0⟩ := by
    apply List.ext_getElem?
    intro i
    rw [List.getElem?_map]
    rcases Nat.lt_or_ge i pts.length with hi | hi
    · rw [List.getElem?_range hi, Option.map_some, List.getElem?_eq_getElem hi]
      rfl
    · rw [List.getElem?_eq_none hi, List.getElem?_eq_none (by simpa using hi)]; rfl
  rw [hw]
  conv_rhs => rw [hpts]
  rw [List.filter_map, List.length_map]
  rfl

/-- The table `original_indexes` gives for every added point the source point it is a copy of. -/
theorem padded_original (pts : List Pt) (k : Nat) (q : Pt) (h : (padded pts)[pts.length + k]? = some q) :
    ∃ j p, (originalIndexes (pts.map (·.lon)))[k]? = some j ∧ pts[j]? = some p ∧ q.lat = p.lat ∧
      (q.lon = p.lon - 360 ∨ q.lon = p.lon + 360) := by
  unfold padded at h
  dsimp only at h
  unfold originalIndexes
  rw [List.append_assoc, List.getElem?_append_right (by omega), Nat.add_sub_cancel_left] at h
  generalize lmax (pts.map (·.lon)) - lonRes (pts.map (·.lon)) * 2 = x at h ⊢
  generalize lmin (pts.map (·.lon)) + lonRes (pts.map (·.lon)) * 2 = y at h ⊢
  have hlen := filter_where_length pts fun z => decide (x < z)
  rcases Nat.lt_or_ge k (pts.filter fun p => decide (x < p.lon)).length with hk | hk
  · rw [List.getElem?_append_left (by rwa [List.length_map]), List.getElem?_map] at h
    obtain ⟨p, hp, rfl⟩ := Option.map_eq_some_iff.1 h
    obtain ⟨j, hj, hjp⟩ := filter_where pts (fun z => decide (x < z)) k p hp
    exact ⟨j, p, by rw [List.getElem?_append_left (by omega)]; exact hj, hjp, rfl, Or.inl rfl⟩
  · rw [List.getElem?_append_right (by rwa [List.length_map]), List.length_map, List.getElem?_map] at h
    obtain ⟨p, hp, rfl⟩ := Option.map_eq_some_iff.1 h
    obtain ⟨j, hj, hjp⟩ := filter_where pts (fun z => decide (z < y)) _ p hp
    exact ⟨j, p, by rw [List.getElem?_append_right (by omega), hlen]; exact hj, hjp, rfl, Or.inr rfl⟩

/-- **C75** (indexes, the part that holds). Every index of the extended grid except the first added one is mapped to
the source point it stands for: same latitude, same longitude up to a full turn. What is missing: the first added
point (`triangulation_first_added`). -/
theorem triangulation_indexes_partial (pts : List Pt) (i : Nat) (q : Pt) (h : (padded pts)[i]? = some q)
    (hi : i ≠ pts.length) :
    ∃ j p, remap pts.length (originalIndexes (pts.map (·.lon))) i = .ok j ∧ pts[j]? = some p ∧ q.lat = p.lat ∧
      (q.lon = p.lon ∨ q.lon = p.lon - 360 ∨ q.lon = p.lon + 360) := by
  unfold remap
  rcases Nat.lt_trichotomy i pts.length with hlt | he | hgt
  · rw [if_neg (by omega)]
    refine ⟨i, q, rfl, ?_, rfl, Or.inl rfl⟩
    unfold padded at h
    dsimp only at h
    rw [List.append_assoc, List.getElem?_append_left hlt] at h
    exact h
  · exact absurd he hi
  · rw [if_pos hgt]
    obtain ⟨k, rfl⟩ : ∃ k, i = pts.length + k := ⟨i - pts.length, by omega⟩
    obtain ⟨j, p, hj, hp, e1, e2⟩ := padded_original pts k q h
    rw [Nat.add_sub_cancel_left, hj]
    exact ⟨j, p, rfl, hp, e1, Or.inr e2⟩

/-- C75 is false for the first added point: its index is kept and is not the index of a source point, but of the
missing value that is appended to the field. -/
theorem triangulation_first_added (pts : List Pt) :
    remap pts.length (originalIndexes (pts.map (·.lon))) pts.length = .ok pts.length ∧ pts[pts.length]? = none := by
  unfold remap
  rw [if_neg (lt_irrefl _)]
  exact ⟨rfl, List.getElem?_eq_none (le_refl _)⟩

theorem num_fin_sum (l : List ℚ) : (l.map Num.fin).sum = Num.fin l.sum := by
  induction l with
  | nil => rfl
  | cons x l ih => rw [List.map_cons, List.sum_cons, ih, List.sum_cons]; rfl

/-- **C75** (output, the part that holds). A target in a proper triangle of the extended grid none of whose corners is
the first added point: the output for any field is the mean of the values at the three source points with the
barycentric weights. In particular a constant field is reproduced, and so is any field that at these source points is
affine in the coordinates of the triangulation. -/
theorem triangulation_output_partial {n : Nat} (pts : List Pt) (hn : pts.length = n) (i1 i2 i3 : Nat)
    (hi1 : i1 < (padded pts).length) (hi2 : i2 < (padded pts).length) (hi3 : i3 < (padded pts).length)
    (h1 : i1 ≠ n) (h2 : i2 ≠ n) (h3 : i3 ≠ n) (v1 v2 v3 p : Pt) (hv : ¬ Spec.Collinear v1 v2 v3)
    (val : Fin n → ℚ) (mask : Option (Fin n → Bool)) (mv : Num) :
    ∃ row j1 j2 j3, ∃ b1 b2 b3 : ℚ,
      triRow n true (originalIndexes (pts.map (·.lon))) false i1 i2 i3 v1 v2 v3 p = .ok row ∧
      (∃ q ∈ (padded pts)[i1]?, ∃ s ∈ pts[j1.1]?, q.lat = s.lat ∧ (q.lon = s.lon ∨ q.lon = s.lon - 360 ∨ q.lon = s.lon + 360)) ∧
      (∃ q ∈ (padded pts)[i2]?, ∃ s ∈ pts[j2.1]?, q.lat = s.lat ∧ (q.lon = s.lon ∨ q.lon = s.lon - 360 ∨ q.lon = s.lon + 360)) ∧
      (∃ q ∈ (padded pts)[i3]?, ∃ s ∈ pts[j3.1]?, q.lat = s.lat ∧ (q.lon = s.lon ∨ q.lon = s.lon - 360 ∨ q.lon = s.lon + 360)) ∧
      b1 + b2 + b3 = 1 ∧ b1 * v1.lat + b2 * v2.lat + b3 * v3.lat = p.lat ∧ b1 * v1.lon + b2 * v2.lon + b3 * v3.lon = p.lon ∧
      TableApply.scipyWeighted ⟨fun i => .fin (val i), mask⟩ mv [row.map fun e => (e.2, e.1)] =
        .ok [.fin (b1 * val j1 + b2 * val j2 + b3 * val j3)] := by
  subst hn
  have get : ∀ i, i < (padded pts).length → i ≠ pts.length → ∃ j : Fin pts.length, ∃ q s,
      (padded pts)[i]? = some q ∧ pts[j.1]? = some s ∧
      remap pts.length (originalIndexes (pts.map (·.lon))) i = .ok j.1 ∧ q.lat = s.lat ∧
      (q.lon = s.lon ∨ q.lon = s.lon - 360 ∨ q.lon = s.lon + 360) := by
    intro i hi hne
    obtain ⟨q, hq⟩ : ∃ q, (padded pts)[i]? = some q := ⟨_, List.getElem?_eq_getElem hi⟩
    obtain ⟨j, s, hj, hs, e1, e2⟩ := triangulation_indexes_partial pts i q hq hne
    exact ⟨⟨j, (List.getElem?_eq_some_iff.1 hs).1⟩, q, s, hq, hs, hj, e1, e2⟩
  obtain ⟨j1, q1, s1, a1, c1, r1, d1⟩ := get i1 hi1 h1
  obtain ⟨j2, q2, s2, a2, c2, r2, d2⟩ := get i2 hi2 h2
  obtain ⟨j3, q3, s3, a3, c3, r3, d3⟩ := get i3 hi3 h3
  obtain ⟨b1, b2, b3, hb, hs, m1, m2, -, -, -⟩ := barycentric_weights v1 v2 v3 p hv
  refine ⟨[(.fin b1, j1.1), (.fin b2, j2.1), (.fin b3, j3.1)], j1, j2, j3, b1, b2, b3, ?_, ⟨q1, a1, s1, c1, d1⟩,
    ⟨q2, a2, s2, c2, d2⟩, ⟨q3, a3, s3, c3, d3⟩, hs, m1, m2, ?_⟩
  · unfold triRow
    simp only [if_true, r1, r2, r3, py_bind_ok, Bool.false_eq_true, if_false, hb]
  · unfold TableApply.scipyWeighted TableApply.srcMv
    simp only [List.map_cons, List.map_nil, List.mapM_cons, List.mapM_nil, dif_pos j1.2, dif_pos j2.2, dif_pos j3.2,
      Fin.eta, py_bind_ok, pure, Except.pure, List.foldl_cons, List.foldl_nil, Num.zero_def, Num.fin_mul, Num.fin_add,
      zero_add]

namespace Demo

/-- A global grid with rows at 60 degrees and at the equator, a point every 90 degrees, starting at longitude 180
(180, 270, 0, 90; the longitudes are the normalised ones). -/
def globalGrid : List Pt :=
  [⟨60, 180⟩, ⟨60, -90⟩, ⟨60, 0⟩, ⟨60, 90⟩, ⟨0, 180⟩, ⟨0, -90⟩, ⟨0, 0⟩, ⟨0, 90⟩]

end Demo

/-- The failure shows in the output: a constant field of ones, and a target at longitude -135 in the triangle of the
first added point (the first source point, at longitude -180) and two others. With the missing value -9999 the output
is -4999. -/
theorem triangulation_constant_lost :
    isGlobal (Demo.globalGrid.map (·.lon)) = true ∧
    (padded Demo.globalGrid)[8]? = some ⟨60, -180⟩ ∧
    ∃ row, triRow 8 true (originalIndexes (Demo.globalGrid.map (·.lon))) false 8 1 12 ⟨60, -180⟩ ⟨60, -90⟩ ⟨0, -180⟩
        ⟨60, -135⟩ = .ok row ∧
      TableApply.scipyWeighted (n := 8) ⟨fun _ => 1, none⟩ (.fin (-9999)) [row.map fun e => (e.2, e.1)] =
        .ok [.fin (-4999)] := by
  refine ⟨by decide +kernel, by decide +kernel, [(.fin (1 / 2), 8), (.fin (1 / 2), 1), (.fin 0, 4)], by decide +kernel,
    by decide +kernel⟩

/-! ## Non-vacuity -/

/-- A triangle, a point in it, one outside it, in both orientations. -/
example : inTriangle ⟨1, 1⟩ ⟨0, 0⟩ ⟨3, 0⟩ ⟨0, 3⟩ = true ∧ inTriangle ⟨1, 1⟩ ⟨0, 0⟩ ⟨0, 3⟩ ⟨3, 0⟩ = true ∧
    inTriangle ⟨2, 2⟩ ⟨0, 0⟩ ⟨3, 0⟩ ⟨0, 3⟩ = false := by decide +kernel

example : ¬ Spec.Collinear ⟨0, 0⟩ ⟨3, 0⟩ ⟨0, 3⟩ := by unfold Spec.Collinear; norm_num

/-- A convex quadrilateral that is no rectangle, and one that is not convex. -/
example : isConvex ⟨0, 0⟩ ⟨1, 4⟩ ⟨5, 5⟩ ⟨4, 1⟩ = true ∧ isConvex ⟨0, 0⟩ ⟨1, 4⟩ ⟨1, 1⟩ ⟨4, 1⟩ = false := by decide +kernel

/-- Targets of `triangulation_output_partial` on the global grid: every index but 8. -/
example : (padded Demo.globalGrid).length = 24 ∧
    (padded Demo.globalGrid)[12]? = some ⟨0, -180⟩ ∧
    remap 8 (originalIndexes (Demo.globalGrid.map (·.lon))) 12 = .ok 4 := by decide +kernel

end PyG2P
