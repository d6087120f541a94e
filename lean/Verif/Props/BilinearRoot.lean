import Verif.Props.ScipyGeom
import Mathlib.Topology.Order.IntermediateValue
import Mathlib.Topology.Algebra.Order.Field
import Mathlib.Topology.Instances.Real.Lemmas
import Mathlib.Tactic.Linarith
import Mathlib.Tactic.FieldSimp
import Mathlib.Tactic.LinearCombination

/-! # C99: the system the bilinear method solves has exactly one solution -/

namespace PyG2P
open ScipyLib

namespace Spec

/-- `(a, b)` is a solution in the unit square: the target is the mean of the corners with the weights
`(1 - a)(1 - b)`, `a (1 - b)`, `a b`, `(1 - a) b`. -/
def BilinearRoot (t p1 p2 p3 p4 : Pt) (r : ℝ × ℝ) : Prop :=
  (0 ≤ r.1 ∧ r.1 ≤ 1) ∧ (0 ≤ r.2 ∧ r.2 ≤ 1) ∧
  (1 - r.1) * (1 - r.2) * (p1.lat : ℝ) + r.1 * (1 - r.2) * (p2.lat : ℝ) + r.1 * r.2 * (p3.lat : ℝ) +
    (1 - r.1) * r.2 * (p4.lat : ℝ) = (t.lat : ℝ) ∧
  (1 - r.1) * (1 - r.2) * (p1.lon : ℝ) + r.1 * (1 - r.2) * (p2.lon : ℝ) + r.1 * r.2 * (p3.lon : ℝ) +
    (1 - r.1) * r.2 * (p4.lon : ℝ) = (t.lon : ℝ)

end Spec

/-- Twice the signed area of a triangle with real corners. -/
def area3 (ax ay bx by' cx cy : ℝ) : ℝ := (bx - ax) * (cy - ay) - (cx - ax) * (by' - ay)

theorem four_pos {w1 w2 w3 w4 c1 c2 c3 c4 : ℝ} (h1 : 0 ≤ w1) (h2 : 0 ≤ w2) (h3 : 0 ≤ w3) (h4 : 0 ≤ w4)
    (hs : w1 + w2 + w3 + w4 = 1) (k1 : 0 < c1) (k2 : 0 < c2) (k3 : 0 < c3) (k4 : 0 < c4) :
    0 < w1 * c1 + w2 * c2 + w3 * c3 + w4 * c4 := by
  have m : 0 < min (min c1 c2) (min c3 c4) := lt_min (lt_min k1 k2) (lt_min k3 k4)
  set m' := min (min c1 c2) (min c3 c4)
  have e1 : m' ≤ c1 := (min_le_left _ _).trans (min_le_left _ _)
  have e2 : m' ≤ c2 := (min_le_left _ _).trans (min_le_right _ _)
  have e3 : m' ≤ c3 := (min_le_right _ _).trans (min_le_left _ _)
  have e4 : m' ≤ c4 := (min_le_right _ _).trans (min_le_right _ _)
  have f1 := mul_le_mul_of_nonneg_left e1 h1
  have f2 := mul_le_mul_of_nonneg_left e2 h2
  have f3 := mul_le_mul_of_nonneg_left e3 h3
  have f4 := mul_le_mul_of_nonneg_left e4 h4
  have : w1 * m' + w2 * m' + w3 * m' + w4 * m' = m' := by rw [← add_mul, ← add_mul, ← add_mul, hs, one_mul]
  linarith

/-- A convex quadrilateral with positive orientation and a point on the inner side of all its edges: a solution. -/
theorem root_exists {x1 y1 x2 y2 x3 y3 x4 y4 x y : ℝ} 
    (k1 : 0 < area3 x4 y4 x1 y1 x2 y2) (k2 : 0 < area3 x1 y1 x2 y2 x3 y3) (k3 : 0 < area3 x2 y2 x3 y3 x4 y4)
    (k4 : 0 < area3 x3 y3 x4 y4 x1 y1)
    (e1 : 0 ≤ area3 x1 y1 x2 y2 x y) (e2 : 0 ≤ area3 x2 y2 x3 y3 x y) (e3 : 0 ≤ area3 x3 y3 x4 y4 x y)
    (e4 : 0 ≤ area3 x4 y4 x1 y1 x y) :
    ∃ a b : ℝ, (0 ≤ a ∧ a ≤ 1) ∧ (0 ≤ b ∧ b ≤ 1) ∧
      (1 - a) * (1 - b) * x1 + a * (1 - b) * x2 + a * b * x3 + (1 - a) * b * x4 = x ∧
      (1 - a) * (1 - b) * y1 + a * (1 - b) * y2 + a * b * y3 + (1 - a) * b * y4 = y := by
  have hcont : ContinuousOn (fun b : ℝ => area3 ((1 - b) * x1 + b * x4) ((1 - b) * y1 + b * y4)
      ((1 - b) * x2 + b * x3) ((1 - b) * y2 + b * y3) x y) (Set.Icc 0 1) := by
    unfold area3
    fun_prop
  have hz : (0 : ℝ) ∈ Set.Icc ((fun b : ℝ => area3 ((1 - b) * x1 + b * x4) ((1 - b) * y1 + b * y4)
      ((1 - b) * x2 + b * x3) ((1 - b) * y2 + b * y3) x y) 1) ((fun b : ℝ => area3 ((1 - b) * x1 + b * x4) ((1 - b) * y1 + b * y4)
      ((1 - b) * x2 + b * x3) ((1 - b) * y2 + b * y3) x y) 0) := by
    unfold area3 at *
    dsimp only
    constructor <;> linarith
  obtain ⟨b, ⟨hb0, hb1⟩, hb⟩ := intermediate_value_Icc' zero_le_one hcont hz
  dsimp only at hb
  -- the edge functions of the edges 4-1 and 2-3
  have hq2 : 0 < (1 - b) * area3 x4 y4 x1 y1 x2 y2 + b * area3 x4 y4 x1 y1 x3 y3 := by
    have h' : 0 < area3 x4 y4 x1 y1 x3 y3 := by
      have : area3 x4 y4 x1 y1 x3 y3 = area3 x3 y3 x4 y4 x1 y1 := by unfold area3; ring
      rw [this]; exact k4
    have := four_pos (w1 := 1 - b) (w2 := b) (w3 := 0) (w4 := 0) (by linarith) hb0 le_rfl le_rfl (by ring) k1 h' k1 k1
    linarith
  have hq1 : 0 < (1 - b) * area3 x2 y2 x3 y3 x1 y1 + b * area3 x2 y2 x3 y3 x4 y4 := by
    have h' : 0 < area3 x2 y2 x3 y3 x1 y1 := by
      have : area3 x2 y2 x3 y3 x1 y1 = area3 x1 y1 x2 y2 x3 y3 := by unfold area3; ring
      rw [this]; exact k2
    have := four_pos (w1 := 1 - b) (w2 := b) (w3 := 0) (w4 := 0) (by linarith) hb0 le_rfl le_rfl (by ring) h' k3 k1 k1
    linarith
  set L := (1 - b) * area3 x4 y4 x1 y1 x2 y2 + b * area3 x4 y4 x1 y1 x3 y3 with hL
  set M := (1 - b) * area3 x2 y2 x3 y3 x1 y1 + b * area3 x2 y2 x3 y3 x4 y4 with hM
  have ha0 : 0 ≤ area3 x4 y4 x1 y1 x y / L := div_nonneg e4 hq2.le
  -- the solution
  have hx : L * ((1 - area3 x4 y4 x1 y1 x y / L) * (1 - b) * x1 + area3 x4 y4 x1 y1 x y / L * (1 - b) * x2 +
      area3 x4 y4 x1 y1 x y / L * b * x3 + (1 - area3 x4 y4 x1 y1 x y / L) * b * x4) = L * x := by
    have : L * ((1 - area3 x4 y4 x1 y1 x y / L) * (1 - b) * x1 + area3 x4 y4 x1 y1 x y / L * (1 - b) * x2 +
      area3 x4 y4 x1 y1 x y / L * b * x3 + (1 - area3 x4 y4 x1 y1 x y / L) * b * x4) =
      L * ((1 - b) * x1 + b * x4) + area3 x4 y4 x1 y1 x y * ((1 - b) * x2 + b * x3 - (1 - b) * x1 - b * x4) := by
      field_simp
      ring
    rw [this, hL]
    unfold area3 at hb ⊢
    linear_combination (x1 - x4) * hb
  have hy : L * ((1 - area3 x4 y4 x1 y1 x y / L) * (1 - b) * y1 + area3 x4 y4 x1 y1 x y / L * (1 - b) * y2 +
      area3 x4 y4 x1 y1 x y / L * b * y3 + (1 - area3 x4 y4 x1 y1 x y / L) * b * y4) = L * y := by
    have : L * ((1 - area3 x4 y4 x1 y1 x y / L) * (1 - b) * y1 + area3 x4 y4 x1 y1 x y / L * (1 - b) * y2 +
      area3 x4 y4 x1 y1 x y / L * b * y3 + (1 - area3 x4 y4 x1 y1 x y / L) * b * y4) =
      L * ((1 - b) * y1 + b * y4) + area3 x4 y4 x1 y1 x y * ((1 - b) * y2 + b * y3 - (1 - b) * y1 - b * y4) := by
      field_simp
      ring
    rw [this, hL]
    unfold area3 at hb ⊢
    linear_combination (y1 - y4) * hb
  have hx' := mul_left_cancel₀ hq2.ne' hx
  have hy' := mul_left_cancel₀ hq2.ne' hy
  set a := area3 x4 y4 x1 y1 x y / L with ha
  refine ⟨a, b, ⟨ha0, ?_⟩, ⟨hb0, hb1⟩, hx', hy'⟩
  have hm : area3 x2 y2 x3 y3 x y = (1 - a) * M := by
    rw [← hx', ← hy', hM]
    unfold area3
    ring
  by_contra hcon
  have : (1 - a) * M < 0 := mul_neg_of_neg_of_pos (by linarith) hq1
  linarith

/-- Two solutions are the same. -/
theorem root_unique {x1 y1 x2 y2 x3 y3 x4 y4 x y a b a' b' : ℝ}
    (k1 : 0 < area3 x4 y4 x1 y1 x2 y2) (k2 : 0 < area3 x1 y1 x2 y2 x3 y3) (k3 : 0 < area3 x2 y2 x3 y3 x4 y4)
    (k4 : 0 < area3 x3 y3 x4 y4 x1 y1) (ha : 0 ≤ a ∧ a ≤ 1) (hb : 0 ≤ b ∧ b ≤ 1) (ha' : 0 ≤ a' ∧ a' ≤ 1)
    (hb' : 0 ≤ b' ∧ b' ≤ 1)
    (hx : (1 - a) * (1 - b) * x1 + a * (1 - b) * x2 + a * b * x3 + (1 - a) * b * x4 = x)
    (hy : (1 - a) * (1 - b) * y1 + a * (1 - b) * y2 + a * b * y3 + (1 - a) * b * y4 = y)
    (hx' : (1 - a') * (1 - b') * x1 + a' * (1 - b') * x2 + a' * b' * x3 + (1 - a') * b' * x4 = x)
    (hy' : (1 - a') * (1 - b') * y1 + a' * (1 - b') * y2 + a' * b' * y3 + (1 - a') * b' * y4 = y) :
    a = a' ∧ b = b' := by
  set A := (a + a') / 2 with hA
  set B := (b + b') / 2 with hB
  have hA0 : 0 ≤ A := by linarith
  have hA1 : 0 ≤ 1 - A := by linarith
  have hB0 : 0 ≤ B := by linarith
  have hB1 : 0 ≤ 1 - B := by linarith
  have hJ := four_pos (w1 := (1 - A) * (1 - B)) (w2 := A * (1 - B)) (w3 := A * B) (w4 := (1 - A) * B)
    (mul_nonneg hA1 hB1) (mul_nonneg hA0 hB1) (mul_nonneg hA0 hB0) (mul_nonneg hA1 hB0) (by ring) k1 k2 k3 k4
  -- derivatives at the middle of the two solutions
  have ex : (a - a') * ((1 - B) * (x2 - x1) + B * (x3 - x4)) + (b - b') * ((1 - A) * (x4 - x1) + A * (x3 - x2)) = 0 := by
    rw [hA, hB]; linear_combination hx - hx'
  have ey : (a - a') * ((1 - B) * (y2 - y1) + B * (y3 - y4)) + (b - b') * ((1 - A) * (y4 - y1) + A * (y3 - y2)) = 0 := by
    rw [hA, hB]; linear_combination hy - hy'
  have hJ' : ((1 - B) * (x2 - x1) + B * (x3 - x4)) * ((1 - A) * (y4 - y1) + A * (y3 - y2)) -
      ((1 - B) * (y2 - y1) + B * (y3 - y4)) * ((1 - A) * (x4 - x1) + A * (x3 - x2)) ≠ 0 := by
    refine ne_of_gt (lt_of_lt_of_eq hJ ?_)
    unfold area3
    ring
  have h1 : (a - a') = 0 := by
    refine (mul_eq_zero.1 (?_ : (a - a') * _ = 0)).resolve_right hJ'
    linear_combination ((1 - A) * (y4 - y1) + A * (y3 - y2)) * ex - ((1 - A) * (x4 - x1) + A * (x3 - x2)) * ey
  have h2 : (b - b') = 0 := by
    refine (mul_eq_zero.1 (?_ : (b - b') * _ = 0)).resolve_right hJ'
    linear_combination ((1 - B) * (x2 - x1) + B * (x3 - x4)) * ey - ((1 - B) * (y2 - y1) + B * (y3 - y4)) * ex
  exact ⟨by linarith, by linarith⟩

theorem area3_cast (a b c : Pt) : area3 (a.lat : ℝ) a.lon b.lat b.lon c.lat c.lon = ((area2 a b c : ℚ) : ℝ) := by
  unfold area3 area2; push_cast; ring

theorem area3_swap (ax ay bx by' cx cy : ℝ) : area3 ay ax by' bx cy cx = - area3 ax ay bx by' cx cy := by
  unfold area3; ring

/-- The four corners of a quadrilateral whose diagonals cross turn the same way. -/
theorem corners_turn {p1 p2 p3 p4 : Pt} (h : Spec.DiagonalsCross p1 p2 p3 p4) :
    (0 < area2 p4 p1 p2 ∧ 0 < area2 p1 p2 p3 ∧ 0 < area2 p2 p3 p4 ∧ 0 < area2 p3 p4 p1) ∨
    (area2 p4 p1 p2 < 0 ∧ area2 p1 p2 p3 < 0 ∧ area2 p2 p3 p4 < 0 ∧ area2 p3 p4 p1 < 0) := by
  obtain ⟨t, u, ⟨ht, ht1⟩, ⟨hu, hu1⟩, e1, e2, hc⟩ := h
  rw [collinear_iff] at hc
  have h4 : u * area2 p3 p4 p1 = (1 - u) * area2 p1 p2 p3 := by
    unfold area2
    linear_combination (p3.lon - p1.lon) * e1 - (p3.lat - p1.lat) * e2
  have h1 : u * area2 p4 p1 p2 = t * area2 p1 p2 p3 := by
    unfold area2
    linear_combination (p2.lon - p1.lon) * e1 - (p2.lat - p1.lat) * e2
  have h3 : u * area2 p2 p3 p4 = (1 - t) * area2 p1 p2 p3 := by
    have : area2 p4 p1 p2 + area2 p2 p3 p4 = area2 p1 p2 p3 + area2 p3 p4 p1 := by unfold area2; ring
    linear_combination u * this - h1 + h4
  rcases lt_or_gt_of_ne hc with hneg | hpos
  · right
    refine ⟨?_, hneg, ?_, ?_⟩
    · have := mul_neg_of_pos_of_neg ht hneg
      rw [← h1] at this
      exact (pos_iff_neg_of_mul_neg this).1 hu
    · have := mul_neg_of_pos_of_neg (sub_pos.2 ht1) hneg
      rw [← h3] at this
      exact (pos_iff_neg_of_mul_neg this).1 hu
    · have := mul_neg_of_pos_of_neg (sub_pos.2 hu1) hneg
      rw [← h4] at this
      exact (pos_iff_neg_of_mul_neg this).1 hu
  · left
    refine ⟨?_, hpos, ?_, ?_⟩
    · have := mul_pos ht hpos
      rw [← h1] at this
      exact (pos_iff_pos_of_mul_pos this).1 hu
    · have := mul_pos (sub_pos.2 ht1) hpos
      rw [← h3] at this
      exact (pos_iff_pos_of_mul_pos this).1 hu
    · have := mul_pos (sub_pos.2 hu1) hpos
      rw [← h4] at this
      exact (pos_iff_pos_of_mul_pos this).1 hu

/-- The sides of a mean of four points. -/
theorem edge_mean {p p1 p2 p3 p4 : Pt} {a b c d : ℚ} (h : Spec.IsMean p [(a, p1), (b, p2), (c, p3), (d, p4)]) :
    area2 p1 p2 p = c * area2 p1 p2 p3 + d * area2 p4 p1 p2 ∧
    area2 p2 p3 p = d * area2 p2 p3 p4 + a * area2 p1 p2 p3 ∧
    area2 p3 p4 p = a * area2 p3 p4 p1 + b * area2 p2 p3 p4 ∧
    area2 p4 p1 p = b * area2 p4 p1 p2 + c * area2 p3 p4 p1 := by
  rw [IsMean4_iff] at h
  obtain ⟨-, hs, m1, m2⟩ := h
  obtain rfl : a = 1 - b - c - d := by linarith
  unfold area2
  rw [← m1, ← m2]
  refine ⟨by ring, by ring, by ring, by ring⟩

/-- **C99.** The corners are convex and the target is in their quadrilateral (as the program tests it): the system the
solver is given has exactly one solution in the unit square. -/
theorem bilinear_root (t p1 p2 p3 p4 : Pt) (hc : isConvex p1 p2 p3 p4 = true)
    (ht : inQuadrilateral t p1 p2 p3 p4 = true) : ∃! r, Spec.BilinearRoot t p1 p2 p3 p4 r := by
  rw [quadrilateral_test t p1 p2 p3 p4 hc] at ht
  rw [convex_test] at hc
  obtain ⟨w1, w2, w3, w4, hm⟩ := ht
  obtain ⟨f1, f2, f3, f4⟩ := edge_mean hm
  rw [IsMean4_iff] at hm
  obtain ⟨⟨n1, n2, n3, n4⟩, -⟩ := hm
  rcases corners_turn hc with ⟨k1, k2, k3, k4⟩ | ⟨k1, k2, k3, k4⟩
  · have c1 : 0 < area3 (p4.lat : ℝ) p4.lon p1.lat p1.lon p2.lat p2.lon := by rw [area3_cast]; exact_mod_cast k1
    have c2 : 0 < area3 (p1.lat : ℝ) p1.lon p2.lat p2.lon p3.lat p3.lon := by rw [area3_cast]; exact_mod_cast k2
    have c3 : 0 < area3 (p2.lat : ℝ) p2.lon p3.lat p3.lon p4.lat p4.lon := by rw [area3_cast]; exact_mod_cast k3
    have c4 : 0 < area3 (p3.lat : ℝ) p3.lon p4.lat p4.lon p1.lat p1.lon := by rw [area3_cast]; exact_mod_cast k4
    have g1 : 0 ≤ area3 (p1.lat : ℝ) p1.lon p2.lat p2.lon t.lat t.lon := by
      rw [area3_cast]; exact_mod_cast f1 ▸ add_nonneg (mul_nonneg n3 k2.le) (mul_nonneg n4 k1.le)
    have g2 : 0 ≤ area3 (p2.lat : ℝ) p2.lon p3.lat p3.lon t.lat t.lon := by
      rw [area3_cast]; exact_mod_cast f2 ▸ add_nonneg (mul_nonneg n4 k3.le) (mul_nonneg n1 k2.le)
    have g3 : 0 ≤ area3 (p3.lat : ℝ) p3.lon p4.lat p4.lon t.lat t.lon := by
      rw [area3_cast]; exact_mod_cast f3 ▸ add_nonneg (mul_nonneg n1 k4.le) (mul_nonneg n2 k3.le)
    have g4 : 0 ≤ area3 (p4.lat : ℝ) p4.lon p1.lat p1.lon t.lat t.lon := by
      rw [area3_cast]; exact_mod_cast f4 ▸ add_nonneg (mul_nonneg n2 k1.le) (mul_nonneg n3 k4.le)
    obtain ⟨a, b, ha, hb, hx, hy⟩ := root_exists c1 c2 c3 c4 g1 g2 g3 g4
    refine ⟨(a, b), ⟨ha, hb, hx, hy⟩, ?_⟩
    rintro ⟨a', b'⟩ ⟨ha', hb', hx', hy'⟩
    have := root_unique c1 c2 c3 c4 ha' hb' ha hb hx' hy' hx hy
    rw [Prod.mk.injEq]
    exact this
  · have c1 : 0 < area3 (p4.lon : ℝ) p4.lat p1.lon p1.lat p2.lon p2.lat := by
      rw [area3_swap, area3_cast]; exact neg_pos.2 (by exact_mod_cast k1)
    have c2 : 0 < area3 (p1.lon : ℝ) p1.lat p2.lon p2.lat p3.lon p3.lat := by
      rw [area3_swap, area3_cast]; exact neg_pos.2 (by exact_mod_cast k2)
    have c3 : 0 < area3 (p2.lon : ℝ) p2.lat p3.lon p3.lat p4.lon p4.lat := by
      rw [area3_swap, area3_cast]; exact neg_pos.2 (by exact_mod_cast k3)
    have c4 : 0 < area3 (p3.lon : ℝ) p3.lat p4.lon p4.lat p1.lon p1.lat := by
      rw [area3_swap, area3_cast]; exact neg_pos.2 (by exact_mod_cast k4)
    have np : ∀ {a b x y : ℚ}, 0 ≤ a → x < 0 → 0 ≤ b → y < 0 → a * x + b * y ≤ 0 := by
      intro a b x y ha hx hb hy
      exact add_nonpos (mul_nonpos_of_nonneg_of_nonpos ha hx.le) (mul_nonpos_of_nonneg_of_nonpos hb hy.le)
    have g1 : 0 ≤ area3 (p1.lon : ℝ) p1.lat p2.lon p2.lat t.lon t.lat := by
      rw [area3_swap, area3_cast]; exact neg_nonneg.2 (by exact_mod_cast f1 ▸ np n3 k2 n4 k1)
    have g2 : 0 ≤ area3 (p2.lon : ℝ) p2.lat p3.lon p3.lat t.lon t.lat := by
      rw [area3_swap, area3_cast]; exact neg_nonneg.2 (by exact_mod_cast f2 ▸ np n4 k3 n1 k2)
    have g3 : 0 ≤ area3 (p3.lon : ℝ) p3.lat p4.lon p4.lat t.lon t.lat := by
      rw [area3_swap, area3_cast]; exact neg_nonneg.2 (by exact_mod_cast f3 ▸ np n1 k4 n2 k3)
    have g4 : 0 ≤ area3 (p4.lon : ℝ) p4.lat p1.lon p1.lat t.lon t.lat := by
      rw [area3_swap, area3_cast]; exact neg_nonneg.2 (by exact_mod_cast f4 ▸ np n2 k1 n3 k4)
    obtain ⟨a, b, ha, hb, hx, hy⟩ := root_exists c1 c2 c3 c4 g1 g2 g3 g4
    refine ⟨(a, b), ⟨ha, hb, hy, hx⟩, ?_⟩
    rintro ⟨a', b'⟩ ⟨ha', hb', hx', hy'⟩
    have := root_unique c1 c2 c3 c4 ha' hb' ha hb hy' hx' hx hy
    rw [Prod.mk.injEq]
    exact this

/-- The model's `alphaBeta` is the function of that system: its rational roots in the unit square are solutions. -/
theorem alphaBeta_root (t p1 p2 p3 p4 : Pt) (r : ℚ × ℚ) (ha : 0 ≤ r.1 ∧ r.1 ≤ 1) (hb : 0 ≤ r.2 ∧ r.2 ≤ 1) :
    alphaBeta t p1 p2 p3 p4 r = (0, 0) ↔ Spec.BilinearRoot t p1 p2 p3 p4 ((r.1 : ℝ), (r.2 : ℝ)) := by
  unfold alphaBeta Spec.BilinearRoot
  rw [Prod.mk.injEq, sub_eq_zero, sub_eq_zero]
  dsimp only
  constructor
  · rintro ⟨h1, h2⟩
    exact ⟨by exact_mod_cast ha, by exact_mod_cast hb, by exact_mod_cast h1, by exact_mod_cast h2⟩
  · rintro ⟨-, -, h1, h2⟩
    exact ⟨by exact_mod_cast h1, by exact_mod_cast h2⟩

/-- **C99 (inexact solutions)**: for whatever point of the unit square the solver returns, the value of a field
`A lat + B lon + C` is off by exactly `A` times the first plus `B` times the second component of what the solver left of
the system. -/
theorem bilinear_residual (t p1 p2 p3 p4 : Pt) (r : ℚ × ℚ) (ha : 0 ≤ r.1 ∧ r.1 ≤ 1) (hb : 0 ≤ r.2 ∧ r.2 ≤ 1)
    (A B C w1 w2 w3 w4 : ℚ) (hw : bilinearWeights r = (w1, w2, w3, w4)) :
    w1 * (A * p1.lat + B * p1.lon + C) + w2 * (A * p2.lat + B * p2.lon + C) + w3 * (A * p3.lat + B * p3.lon + C) +
      w4 * (A * p4.lat + B * p4.lon + C) - (A * t.lat + B * t.lon + C) =
    A * (alphaBeta t p1 p2 p3 p4 r).1 + B * (alphaBeta t p1 p2 p3 p4 r).2 := by
  unfold bilinearWeights at hw
  rw [clip01_id ha, clip01_id hb] at hw
  simp only [Prod.mk.injEq] at hw
  obtain ⟨rfl, rfl, rfl, rfl⟩ := hw
  unfold alphaBeta
  dsimp only
  ring

/-- The hypotheses of `bilinear_root` hold for a general quadrilateral. -/
theorem Demo.bilinear_root_case : isConvex ⟨0, 0⟩ ⟨0, 1⟩ ⟨1, 3/2⟩ ⟨4/3, -1/2⟩ = true ∧
    inQuadrilateral ⟨1/2, 1/3⟩ ⟨0, 0⟩ ⟨0, 1⟩ ⟨1, 3/2⟩ ⟨4/3, -1/2⟩ = true := by
  decide +kernel

end PyG2P
