import Verif.Model.Sphere
import Mathlib.Analysis.SpecialFunctions.Trigonometric.Inverse
import Mathlib.Analysis.Real.Sqrt
import Mathlib.Tactic.LinearCombination
import Mathlib.Tactic.FieldSimp

/-! # C76, C85, C86, C88: coordinates on the sphere and in the plane -/

namespace PyG2P
open ScipyLib

namespace Spec

/-- The cosine of the angle between two points of the globe (spherical law of cosines). -/
noncomputable def cosAngle (lat lon lat' lon' : ℝ) : ℝ :=
  Real.sin (rad lat) * Real.sin (rad lat') + Real.cos (rad lat) * Real.cos (rad lat') * Real.cos (rad lon - rad lon')

/-- Great circle angle of two points of the globe. -/
noncomputable def angle (lat lon lat' lon' : ℝ) : ℝ := Real.arccos (cosAngle lat lon lat' lon')

/-- Two pairs of coordinates denote the same point of the globe. -/
def SamePoint (p q : ℝ × ℝ) : Prop := unitVec p.1 p.2 = unitVec q.1 q.2

end Spec

/-! ## C76 -/

theorem unitVec_norm (lat lon : ℝ) : (unitVec lat lon).x ^ 2 + (unitVec lat lon).y ^ 2 + (unitVec lat lon).z ^ 2 = 1 := by
  unfold unitVec
  dsimp only
  have h1 := Real.sin_sq_add_cos_sq (rad lat)
  have h2 := Real.sin_sq_add_cos_sq (rad lon)
  linear_combination h1 + Real.cos (rad lat) ^ 2 * h2

theorem unitVec_inner (lat lon lat' lon' : ℝ) : (unitVec lat lon).x * (unitVec lat' lon').x +
    (unitVec lat lon).y * (unitVec lat' lon').y + (unitVec lat lon).z * (unitVec lat' lon').z =
    Spec.cosAngle lat lon lat' lon' := by
  unfold unitVec Spec.cosAngle
  dsimp only
  rw [Real.cos_sub]; ring

theorem cosAngle_bounds (lat lon lat' lon' : ℝ) :
    -1 ≤ Spec.cosAngle lat lon lat' lon' ∧ Spec.cosAngle lat lon lat' lon' ≤ 1 := by
  have h := unitVec_inner lat lon lat' lon'
  have h1 := unitVec_norm lat lon
  have h2 := unitVec_norm lat' lon'
  generalize unitVec lat lon = a at *
  generalize unitVec lat' lon' = b at *
  rw [← h]
  constructor
  · nlinarith [sq_nonneg (a.x + b.x), sq_nonneg (a.y + b.y), sq_nonneg (a.z + b.z)]
  · nlinarith [sq_nonneg (a.x - b.x), sq_nonneg (a.y - b.y), sq_nonneg (a.z - b.z)]

/-- **C76** (without rotation). Every point lies on the sphere of radius `r`; the chord distance of two points depends
only on the angle between them, and grows with it, so that the nearest points are those at the smallest angle. -/
theorem sphere_coordinates (r lat lon : ℝ) (hr : 0 < r) :
    (to3d r lat lon).x ^ 2 + (to3d r lat lon).y ^ 2 + (to3d r lat lon).z ^ 2 = r ^ 2 ∧
    (∀ lat' lon', dist2 (to3d r lat lon) (to3d r lat' lon') =
      (2 * r * Real.sin (Spec.angle lat lon lat' lon' / 2)) ^ 2) ∧
    (∀ lat1 lon1 lat2 lon2,
      dist2 (to3d r lat lon) (to3d r lat1 lon1) ≤ dist2 (to3d r lat lon) (to3d r lat2 lon2) ↔
        Spec.angle lat lon lat1 lon1 ≤ Spec.angle lat lon lat2 lon2) := by
  have hd : ∀ lat' lon', dist2 (to3d r lat lon) (to3d r lat' lon') =
      2 * r ^ 2 * (1 - Spec.cosAngle lat lon lat' lon') := by
    intro lat' lon'
    have h := unitVec_inner lat lon lat' lon'
    have h1 := unitVec_norm lat lon
    have h2 := unitVec_norm lat' lon'
    unfold dist2 to3d
    dsimp only
    linear_combination r ^ 2 * h1 + r ^ 2 * h2 - 2 * r ^ 2 * h
  refine ⟨?_, ?_, ?_⟩
  · unfold to3d
    dsimp only
    linear_combination r ^ 2 * unitVec_norm lat lon
  · intro lat' lon'
    rw [hd]
    obtain ⟨h1, h2⟩ := cosAngle_bounds lat lon lat' lon'
    have : Real.cos (Spec.angle lat lon lat' lon') = Spec.cosAngle lat lon lat' lon' := Real.cos_arccos h1 h2
    have h3 := Real.cos_sq (Spec.angle lat lon lat' lon' / 2)
    have h4 := Real.sin_sq_add_cos_sq (Spec.angle lat lon lat' lon' / 2)
    rw [mul_div_cancel₀ _ (by norm_num : (2 : ℝ) ≠ 0), this] at h3
    linear_combination (-4 * r ^ 2) * h4 + 4 * r ^ 2 * h3
  · intro lat1 lon1 lat2 lon2
    rw [hd, hd]
    unfold Spec.angle
    rw [Real.strictAntiOn_arccos.le_iff_ge ⟨(cosAngle_bounds _ _ _ _).1, (cosAngle_bounds _ _ _ _).2⟩
      ⟨(cosAngle_bounds _ _ _ _).1, (cosAngle_bounds _ _ _ _).2⟩]
    have : 0 < 2 * r ^ 2 := by positivity
    rw [mul_le_mul_iff_right₀ this]
    constructor <;> intro h <;> linarith

/-- **C76** (rotation). The function that rotates a grid preserves distances, for every pole. -/
theorem rotate_distance (latSP lonSP lat lon lat' lon' : ℝ) :
    dist2 (rotate latSP lonSP lat lon) (rotate latSP lonSP lat' lon') = dist2 (unitVec lat lon) (unitVec lat' lon') := by
  unfold dist2 rotate
  dsimp only
  generalize unitVec lat lon = a
  generalize unitVec lat' lon' = b
  have h1 := Real.sin_sq_add_cos_sq (rad (90 + latSP))
  have h2 := Real.sin_sq_add_cos_sq (rad lonSP)
  generalize Real.sin (rad (90 + latSP)) = st at *
  generalize Real.cos (rad (90 + latSP)) = ct at *
  generalize Real.sin (rad lonSP) = sf at *
  generalize Real.cos (rad lonSP) = cf at *
  linear_combination ((cf * (a.x - b.x) + sf * (a.y - b.y)) ^ 2 + (a.z - b.z) ^ 2) * h1 +
    ((a.x - b.x) ^ 2 + (a.y - b.y) ^ 2) * h2

/-- **C76** (inverse rotation, the part that holds). The function that turns rotated into regular coordinates preserves
distances when the longitude of the pole is zero. What is missing: other poles (`toRegular_collapses`). -/
theorem toRegular_distance_partial (latSP lat lon lat' lon' : ℝ) :
    dist2 (toRegular latSP 0 lat lon) (toRegular latSP 0 lat' lon') = dist2 (unitVec lat lon) (unitVec lat' lon') := by
  unfold dist2 toRegular
  dsimp only
  generalize unitVec lat lon = a
  generalize unitVec lat' lon' = b
  have h1 := Real.sin_sq_add_cos_sq (-rad (90 + latSP))
  generalize Real.sin (-rad (90 + latSP)) = st at *
  generalize Real.cos (-rad (90 + latSP)) = ct at *
  have e0 : -rad 0 = 0 := by unfold rad; simp
  rw [e0, Real.sin_zero, Real.cos_zero]
  linear_combination ((a.x - b.x) ^ 2 + (a.z - b.z) ^ 2) * h1

/-- C76 is false for the inverse rotation: with a pole at longitude -45, two points 90 degrees apart get the same
coordinates. -/
theorem toRegular_collapses : toRegular (-90) (-45) 0 0 = toRegular (-90) (-45) 0 90 ∧
    Spec.cosAngle 0 0 0 90 = 0 := by
  have r0 : rad 0 = 0 := by unfold rad; simp
  have r90 : rad 90 = Real.pi / 2 := by unfold rad; ring
  have r1 : rad (90 + -90) = 0 := by norm_num [r0]
  have r45 : -rad (-45) = Real.pi / 4 := by unfold rad; ring
  constructor
  · unfold toRegular unitVec
    rw [r1, r45, r0, r90]
    simp
  · unfold Spec.cosAngle
    rw [r0, r90]
    simp

/-! ## C88 -/

theorem toRegular_norm (latSP lonSP lat lon : ℝ) : (toRegular latSP lonSP lat lon).x ^ 2 +
    (toRegular latSP lonSP lat lon).y ^ 2 + (toRegular latSP lonSP lat lon).z ^ 2 ≤ 2 := by
  unfold toRegular
  dsimp only
  have h0 := unitVec_norm lat lon
  generalize unitVec lat lon = a at *
  have h1 := Real.sin_sq_add_cos_sq (-rad (90 + latSP))
  have h2 := Real.sin_sq_add_cos_sq (-rad lonSP)
  generalize Real.sin (-rad (90 + latSP)) = st at *
  generalize Real.cos (-rad (90 + latSP)) = ct at *
  generalize Real.sin (-rad lonSP) = sf at *
  generalize Real.cos (-rad lonSP) = cf at *
  have hx : (ct * cf * a.x + sf * a.y + st * cf * a.z) ^ 2 ≤ (ct * a.x + st * a.z) ^ 2 + a.y ^ 2 := by
    have : (ct * a.x + st * a.z) ^ 2 + a.y ^ 2 - (ct * cf * a.x + sf * a.y + st * cf * a.z) ^ 2 =
        (sf * (ct * a.x + st * a.z) - cf * a.y) ^ 2 := by
      linear_combination (-((ct * a.x + st * a.z) ^ 2 + a.y ^ 2)) * h2
    nlinarith [sq_nonneg (sf * (ct * a.x + st * a.z) - cf * a.y)]
  have hy : (ct * sf * a.x + cf * a.y - st * sf * a.z) ^ 2 ≤ (ct * a.x - st * a.z) ^ 2 + a.y ^ 2 := by
    have : (ct * a.x - st * a.z) ^ 2 + a.y ^ 2 - (ct * sf * a.x + cf * a.y - st * sf * a.z) ^ 2 =
        (cf * (ct * a.x - st * a.z) - sf * a.y) ^ 2 := by
      linear_combination (-((ct * a.x - st * a.z) ^ 2 + a.y ^ 2)) * h2
    nlinarith [sq_nonneg (cf * (ct * a.x - st * a.z) - sf * a.y)]
  have hw : (ct * a.x - st * a.z) ^ 2 ≤ a.x ^ 2 + a.z ^ 2 := by
    have : a.x ^ 2 + a.z ^ 2 - (ct * a.x - st * a.z) ^ 2 = (st * a.x + ct * a.z) ^ 2 := by
      linear_combination (-(a.x ^ 2 + a.z ^ 2)) * h1
    nlinarith [sq_nonneg (st * a.x + ct * a.z)]
  have hu : (ct * a.x + st * a.z) ^ 2 + (-st * a.x + ct * a.z) ^ 2 = a.x ^ 2 + a.z ^ 2 := by
    linear_combination (a.x ^ 2 + a.z ^ 2) * h1
  linarith

/-- C88 is false: the coordinates of a target grid that is declared as rotated are not scaled by the radius of the
sphere. Every source point is at a distance of at least `r - 3/2` from every target cell, so with a bound below that
(the bound is about the resolution of the source grid) no target cell has a source point within the bound. -/
theorem rotated_target_far (r bound d : ℝ) (hb : bound < r - 3 / 2) (hb0 : 0 ≤ bound) (latSP lonSP lat lon lat' lon' : ℝ)
    (hd : 0 ≤ d) (hd2 : d ^ 2 = dist2 (toRegular latSP lonSP lat lon) (to3d r lat' lon')) : bound < d := by
  have h1 := toRegular_norm latSP lonSP lat lon
  have h2 := unitVec_norm lat' lon'
  unfold dist2 to3d at hd2
  dsimp only at hd2
  generalize toRegular latSP lonSP lat lon = a at *
  generalize unitVec lat' lon' = v at *
  have hr : 0 < r := by linarith
  -- the inner product of the target with the direction of the source is at most 3/2
  have hin : a.x * v.x + a.y * v.y + a.z * v.z ≤ 3 / 2 := by
    nlinarith [sq_nonneg (a.x - v.x), sq_nonneg (a.y - v.y), sq_nonneg (a.z - v.z)]
  have hin2 : (a.x * v.x + a.y * v.y + a.z * v.z) ^ 2 ≤ a.x ^ 2 + a.y ^ 2 + a.z ^ 2 := by
    nlinarith [sq_nonneg (a.x * v.y - a.y * v.x), sq_nonneg (a.x * v.z - a.z * v.x), sq_nonneg (a.y * v.z - a.z * v.y)]
  have hge : (r - (a.x * v.x + a.y * v.y + a.z * v.z)) ^ 2 ≤ d ^ 2 := by
    have e : d ^ 2 = a.x ^ 2 + a.y ^ 2 + a.z ^ 2 - 2 * r * (a.x * v.x + a.y * v.y + a.z * v.z) + r ^ 2 := by
      rw [hd2]; linear_combination r ^ 2 * h2
    have e' : (r - (a.x * v.x + a.y * v.y + a.z * v.z)) ^ 2 = r ^ 2 - 2 * r * (a.x * v.x + a.y * v.y + a.z * v.z) +
        (a.x * v.x + a.y * v.y + a.z * v.z) ^ 2 := by ring
    rw [e, e']; linarith
  have hpos : 0 ≤ r - (a.x * v.x + a.y * v.y + a.z * v.z) := by linarith
  have := abs_le_of_sq_le_sq hge hd
  rw [abs_le] at this
  linarith [this.2]

/-- **C88** (the part that holds): targets that are not declared as rotated are on the same sphere as the source
points (which eccodes gives in geographic coordinates), so their nearest source points are those at the smallest
angle. -/
theorem regular_target_near_partial (r lat lon : ℝ) (hr : 0 < r) (src : List (ℝ × ℝ)) (s : ℝ × ℝ)
    (hs : ∀ s' ∈ src, dist2 (to3d r lat lon) (to3d r s.1 s.2) ≤ dist2 (to3d r lat lon) (to3d r s'.1 s'.2)) :
    ∀ s' ∈ src, Spec.angle lat lon s.1 s.2 ≤ Spec.angle lat lon s'.1 s'.2 :=
  fun s' h => ((sphere_coordinates r lat lon hr).2.2 _ _ _ _).1 (hs s' h)

/-! ## C86 -/

theorem unitVec_turn (lat lon : ℝ) (k : ℤ) : unitVec lat (lon + 360 * k) = unitVec lat lon := by
  have : rad (lon + 360 * k) = rad lon + k * (2 * Real.pi) := by unfold rad; ring
  unfold unitVec
  rw [this, Real.cos_add_int_mul_two_pi, Real.sin_add_int_mul_two_pi]

theorem unitVec_wrap (lat lon : ℝ) : unitVec lat (wrap180 lon) = unitVec lat lon := by
  unfold wrap180
  split_ifs
  · have := unitVec_turn lat lon (-1)
    rw [← this]; congr 1; push_cast; ring
  · rfl

theorem unitVec_ref (lonIn lat lon : ℝ) : unitVec lat (refSystem lonIn lon) = unitVec lat lon := by
  have h1 := unitVec_turn lat lon (-1)
  have h2 := unitVec_turn lat lon 1
  push_cast at h1 h2
  unfold refSystem
  split_ifs
  · rw [← h1]; congr 1; ring
  · rfl
  · rw [← h2]; congr 1; ring
  · rfl
  · rfl

theorem unitVec_fmod (lat lon : ℝ) : unitVec lat (fmod lon 360) = unitVec lat lon := by
  have := unitVec_turn lat lon (-⌊lon / 360⌋)
  rw [← this]; unfold fmod; congr 1; push_cast; ring

theorem unitVec_flip (lat lon : ℝ) (s : ℝ) (hs : s = 1 ∨ s = -1) :
    unitVec (180 * s - lat) (lon + 180) = unitVec lat lon := by
  have h1 : rad (lon + 180) = rad lon + Real.pi := by unfold rad; ring
  unfold unitVec
  rw [h1, Real.cos_add_pi, Real.sin_add_pi]
  rcases hs with rfl | rfl
  · have h2 : rad (180 * 1 - lat) = Real.pi - rad lat := by unfold rad; ring
    rw [h2, Real.cos_pi_sub, Real.sin_pi_sub]
    congr 1 <;> ring
  · have h2 : rad (180 * -1 - lat) = -(Real.pi + rad lat) := by unfold rad; ring
    rw [h2, Real.cos_neg, Real.sin_neg, add_comm, Real.cos_add_pi, Real.sin_add_pi]
    congr 1 <;> ring

theorem fmod_neg {x : ℝ} (h : -360 ≤ x) (h' : x < 0) : fmod x 360 = x + 360 := by
  have : ⌊x / 360⌋ = -1 := by
    rw [Int.floor_eq_iff]; push_cast
    constructor
    · rw [le_div_iff₀ (by norm_num)]; linarith
    · rw [div_lt_iff₀ (by norm_num)]; linarith
  unfold fmod; rw [this]; push_cast; ring

theorem fmod_mid {x : ℝ} (h : 0 ≤ x) (h' : x < 360) : fmod x 360 = x := by
  have : ⌊x / 360⌋ = 0 := by
    rw [Int.floor_eq_iff]; push_cast
    constructor
    · rw [le_div_iff₀ (by norm_num)]; linarith
    · rw [div_lt_iff₀ (by norm_num)]; linarith
  unfold fmod; rw [this]; push_cast; ring

theorem fmod_big {x : ℝ} (h : 360 ≤ x) (h' : x < 720) : fmod x 360 = x - 360 := by
  have : ⌊x / 360⌋ = 1 := by
    rw [Int.floor_eq_iff]; push_cast
    constructor
    · rw [le_div_iff₀ (by norm_num)]; linarith
    · rw [div_lt_iff₀ (by norm_num)]; linarith
  unfold fmod; rw [this]; push_cast; ring

theorem flipped_near {lonIn l : ℝ} (h1 : -180 ≤ lonIn) (h2 : lonIn ≤ 180) (h9 : 90 < |lonIn - l|)
    (hl : lonIn < -90 ∧ -360 < l ∧ l ≤ 0 ∨ 90 < lonIn ∧ 0 ≤ l ∧ l < 360 ∨ -90 ≤ lonIn ∧ lonIn ≤ 90 ∧ -180 ≤ l ∧ l ≤ 180) :
    |lonIn - refSystem lonIn (wrap180 (fmod (l + 180) 360))| ≤ 90 := by
  have hf : -360 ≤ l + 180 ∧ l + 180 < 0 ∧ fmod (l + 180) 360 = l + 180 + 360 ∨
      0 ≤ l + 180 ∧ l + 180 < 360 ∧ fmod (l + 180) 360 = l + 180 ∨
      360 ≤ l + 180 ∧ l + 180 < 720 ∧ fmod (l + 180) 360 = l + 180 - 360 := by
    have hb : -360 < l ∧ l < 360 := by
      rcases hl with ⟨_, h, h'⟩ | ⟨_, h, h'⟩ | ⟨_, _, h, h'⟩ <;> constructor <;> linarith
    rcases lt_or_ge (l + 180) 0 with a | a
    · left; exact ⟨by linarith, a, fmod_neg (by linarith) a⟩
    · rcases lt_or_ge (l + 180) 360 with b | b
      · right; left; exact ⟨a, b, fmod_mid a b⟩
      · right; right; exact ⟨b, by linarith, fmod_big b (by linarith)⟩
  rw [lt_abs] at h9
  unfold refSystem wrap180
  rw [abs_le]
  rcases hf with ⟨a, b, e⟩ | ⟨a, b, e⟩ | ⟨a, b, e⟩ <;> rw [e] <;>
    rcases hl with ⟨c, h, h'⟩ | ⟨c, h, h'⟩ | ⟨c, c', h, h'⟩ <;>
    split_ifs <;> rcases h9 with h9 | h9 <;> constructor <;> linarith

/-- **C86** (the part that holds): the plane coordinates of a source point that is not on the equator denote that
source point; for a target longitude within -180..180 (and source longitudes within -180..360) the plane longitude is
at most 90 degrees from the target, so the four corners are on the side of the target. What is missing: points on the
equator (`corner_equator`) and target longitudes above 180 (`corner_far`). -/
theorem corner_same_point_partial (lonIn lat lon : ℝ) :
    (lat ≠ 0 → Spec.SamePoint (correctLatLon lonIn lat lon) (lat, lon)) ∧
    (|lonIn - refSystem lonIn (wrap180 lon)| ≤ 90 → Spec.SamePoint (correctLatLon lonIn lat lon) (lat, lon)) ∧
    (-180 ≤ lonIn → lonIn ≤ 180 → -180 ≤ lon → lon < 360 → |lonIn - (correctLatLon lonIn lat lon).2| ≤ 90) := by
  refine ⟨?_, ?_, ?_⟩
  · intro h
    unfold Spec.SamePoint correctLatLon
    dsimp only
    rw [unitVec_ref]
    split_ifs with h9
    · dsimp only
      rw [unitVec_wrap, unitVec_fmod, unitVec_flip _ _ _ ?_, unitVec_ref, unitVec_wrap]
      unfold sgn
      split_ifs with h1 h2
      · right; rfl
      · left; rfl
      · exact absurd (le_antisymm (not_lt.1 h2) (not_lt.1 h1)) h
    · dsimp only
      rw [unitVec_ref, unitVec_wrap]
  · intro h
    unfold Spec.SamePoint correctLatLon
    dsimp only
    rw [unitVec_ref, if_neg (not_lt.2 h)]
    dsimp only
    rw [unitVec_ref, unitVec_wrap]
  · intro h1 h2 h3 h4
    have hw : -180 ≤ wrap180 lon ∧ wrap180 lon ≤ 180 := by
      unfold wrap180
      split_ifs <;> constructor <;> linarith
    unfold correctLatLon
    dsimp only
    generalize wrap180 lon = w at hw ⊢
    have hl : lonIn < -90 ∧ -360 < refSystem lonIn w ∧ refSystem lonIn w ≤ 0 ∨
        90 < lonIn ∧ 0 ≤ refSystem lonIn w ∧ refSystem lonIn w < 360 ∨
        -90 ≤ lonIn ∧ lonIn ≤ 90 ∧ -180 ≤ refSystem lonIn w ∧ refSystem lonIn w ≤ 180 := by
      unfold refSystem
      split_ifs with a b c d
      · left; exact ⟨a, by linarith, by linarith⟩
      · left; exact ⟨a, by linarith, by linarith⟩
      · right; left; exact ⟨c, by linarith, by linarith⟩
      · right; left; exact ⟨c, by linarith, by linarith⟩
      · right; right; exact ⟨by linarith, by linarith, by linarith, by linarith⟩
    generalize refSystem lonIn w = l at hl ⊢
    by_cases h9 : 90 < |lonIn - l|
    · rw [if_pos h9]
      exact flipped_near h1 h2 h9 hl
    · rw [if_neg h9]
      have : refSystem lonIn l = l := by
        unfold refSystem
        rcases hl with ⟨c, h, h'⟩ | ⟨c, h, h'⟩ | ⟨c, c', h, h'⟩ <;> split_ifs <;> first | rfl | (exfalso; linarith)
      dsimp only
      rw [this]
      exact not_lt.1 h9

/-- C86 is false on the equator: the point is moved to the other side of the globe. -/
theorem corner_equator : correctLatLon 0 0 100 = (0, -80) ∧ ¬ Spec.SamePoint (correctLatLon 0 0 100) (0, 100) := by
  have h : correctLatLon 0 0 100 = (0, -80) := by
    have hf : ⌊(100 + 180 : ℝ) / 360⌋ = 0 := by rw [Int.floor_eq_iff]; norm_num
    unfold correctLatLon refSystem wrap180 fmod sgn
    norm_num [hf, abs_of_neg]
  refine ⟨h, ?_⟩
  rw [h]
  intro hs
  unfold Spec.SamePoint unitVec at hs
  dsimp only at hs
  have e := (V3.mk.inj hs).2.1
  have r0 : rad 0 = 0 := by unfold rad; simp
  rw [r0, Real.cos_zero, mul_one, mul_one] at e
  have h1 : rad 100 = rad (-80) + Real.pi := by unfold rad; ring
  rw [h1, Real.sin_add_pi] at e
  have h2 : Real.sin (rad (-80)) = 0 := by linarith
  have h3 : Real.sin (rad (-80)) < 0 := by
    apply Real.sin_neg_of_neg_of_neg_pi_lt
    · unfold rad; have := Real.pi_pos; linarith
    · unfold rad; have := Real.pi_pos; linarith
  linarith

/-- C86 is false for target longitudes above 180: the target at longitude 350, latitude 10 and the source point at
longitude 0, latitude 10 are 10 degrees apart, in the plane 170 degrees. -/
theorem corner_far : correctLatLon 350 10 0 = (170, 180) := by
  have hf : ⌊(0 + 180 : ℝ) / 360⌋ = 0 := by rw [Int.floor_eq_iff]; norm_num
  unfold correctLatLon refSystem wrap180 fmod sgn
  norm_num

/-! ## C85 -/

theorem rmax_mem_le : ∀ (l : List ℝ), l ≠ [] → rmax l ∈ l ∧ ∀ x ∈ l, x ≤ rmax l := by
  have key : ∀ (l : List ℝ) (a : ℝ), (l.foldl max a = a ∨ l.foldl max a ∈ l) ∧ a ≤ l.foldl max a ∧
      ∀ x ∈ l, x ≤ l.foldl max a := by
    intro l
    induction l with
    | nil => intro a; exact ⟨Or.inl rfl, le_refl _, fun x hx => by cases hx⟩
    | cons b l ih =>
      intro a
      obtain ⟨h1, h2, h3⟩ := ih (max a b)
      rw [List.foldl_cons]
      refine ⟨?_, le_trans (le_max_left _ _) h2, ?_⟩
      · rcases h1 with h1 | h1
        · rw [h1]
          rcases max_choice a b with h | h
          · left; exact h
          · right; rw [h]; exact List.mem_cons_self
        · right; exact List.mem_cons_of_mem _ h1
      · intro x hx
        rcases List.mem_cons.1 hx with rfl | hx
        · exact le_trans (le_max_right _ _) h2
        · exact h3 x hx
  intro l hl
  cases l with
  | nil => exact absurd rfl hl
  | cons a l =>
    obtain ⟨h1, h2, h3⟩ := key l a
    show l.foldl max a ∈ a :: l ∧ ∀ x ∈ a :: l, x ≤ l.foldl max a
    refine ⟨?_, ?_⟩
    · rcases h1 with h1 | h1
      · rw [h1]; exact List.mem_cons_self
      · exact List.mem_cons_of_mem _ h1
    · intro x hx
      rcases List.mem_cons.1 hx with rfl | hx
      · exact h2
      · exact h3 x hx

theorem rmax_map (F : ℝ → ℝ) (hF : StrictMono F) (l : List ℝ) (hl : l ≠ []) : rmax (l.map F) = F (rmax l) := by
  obtain ⟨h1, h2⟩ := rmax_mem_le l hl
  obtain ⟨h3, h4⟩ := rmax_mem_le (l.map F) (by simpa using hl)
  apply le_antisymm
  · obtain ⟨x, hx, he⟩ := List.mem_map.1 h3
    rw [← he]
    exact hF.monotone (h2 x hx)
  · exact h4 _ (List.mem_map.2 ⟨_, h1, rfl⟩)

/-- **C85** (the part that holds): if some source point is north of the equator and the numerical error is smaller than
the integral there, source points and the target cells of the first column are mapped to the plane by the same
function, an increasing one. `F`: the integral (any increasing function that vanishes at the equator). What is
missing: the other columns of targets whose rows are no parallels (`triangulation_columns`), and source grids south of
the equator (`triangulation_south`). -/
theorem triangulation_plane_partial (F : ℝ → ℝ) (hF : StrictMono F) (h0 : F 0 = 0) (lats : List ℝ) (x : ℝ)
    (hx : x ∈ lats) (hpos : 0 < x) (err : ℝ) (herr : err ≤ F (rmax lats)) :
    ∃ g : ℝ → ℝ, StrictMono g ∧ sourceScaled F lats = lats.map g ∧ ∀ c, targetScaled F err lats c = g c := by
  have hne : lats ≠ [] := fun h => by rw [h] at hx; cases hx
  have hm : 0 < F (rmax lats) := by
    rw [← h0]; exact hF (lt_of_lt_of_le hpos ((rmax_mem_le lats hne).2 x hx))
  refine ⟨fun c => F c * 90 * 10 / F (rmax lats), ?_, ?_, ?_⟩
  · intro a b hab
    have := hF hab
    dsimp only
    rw [div_lt_div_iff_of_pos_right hm]
    linarith
  · unfold sourceScaled
    dsimp only
    rw [rmax_map F hF lats hne, List.map_map]
    rfl
  · intro c
    unfold targetScaled
    rw [max_eq_left herr]

/-- C85 is false for source grids south of the equator: every source point is at 900 or above in the plane, while
target cells south of the equator are at negative positions, so that no target cell is in a triangle. -/
theorem triangulation_south (F : ℝ → ℝ) (hF : StrictMono F) (h0 : F 0 = 0) (lats : List ℝ) (hne : lats ≠ [])
    (hs : ∀ x ∈ lats, x < 0) (err : ℝ) (herr : 0 < err) :
    (∀ y ∈ sourceScaled F lats, 900 ≤ y) ∧ ∀ c < 0, targetScaled F err lats c < 0 := by
  obtain ⟨h1, h2⟩ := rmax_mem_le lats hne
  have hm : F (rmax lats) < 0 := by rw [← h0]; exact hF (hs _ h1)
  constructor
  · intro y hy
    unfold sourceScaled at hy
    dsimp only at hy
    rw [rmax_map F hF lats hne, List.map_map] at hy
    obtain ⟨x, hx, rfl⟩ := List.mem_map.1 hy
    dsimp only [Function.comp]
    rw [le_div_iff_of_neg hm]
    have := hF.monotone (h2 x hx)
    linarith
  · intro c hc
    unfold targetScaled
    rw [max_eq_right (by linarith)]
    have : F c < 0 := by rw [← h0]; exact hF hc
    apply div_neg_of_neg_of_pos _ herr
    linarith

/-- C85 is false for targets whose rows are no parallels: the second cell of a row, at the latitude of the first source
point, is put to another place of the plane than that source point, whatever the integral. -/
theorem triangulation_columns (F : ℝ → ℝ) (hF : StrictMono F) (h0 : F 0 = 0) (err : ℝ) (herr : err ≤ F 30) :
    ∃ a b c, sourceScaled F [20, 30] = [a, b] ∧ targetPlane F err [20, 30] [(10, 0), (20, 1)] = [(c, 0), (c, 1)] ∧
      c < a := by
  have hm : (0 : ℝ) < F 30 := by rw [← h0]; exact hF (by norm_num)
  have h10 : F 10 < F 20 := hF (by norm_num)
  have h20 : F 20 < F 30 := hF (by norm_num)
  refine ⟨F 20 * 90 * 10 / F 30, F 30 * 90 * 10 / F 30, F 10 * 90 * 10 / F 30, ?_, ?_, ?_⟩
  · unfold sourceScaled
    simp only [List.map_cons, List.map_nil, rmax, List.foldl_cons, List.foldl_nil]
    rw [max_eq_right h20.le]
  · unfold targetPlane targetScaled
    have : rmax [20, 30] = 30 := by
      show max (20 : ℝ) 30 = 30
      norm_num
    simp only [List.map_cons, List.map_nil, this]
    rw [max_eq_left herr]
  · rw [div_lt_div_iff_of_pos_right hm]
    linarith

/-! ## Non-vacuity -/

/-- Two points on the equator, 60 degrees apart: their chord equals the radius. -/
example : dist2 (to3d 6371 0 0) (to3d 6371 0 60) = 6371 ^ 2 := by
  have h0 : rad 0 = 0 := by unfold rad; simp
  have h60 : rad 60 = Real.pi / 3 := by unfold rad; ring
  have hs : Real.sin (Real.pi / 3) ^ 2 = 3 / 4 := by
    have := Real.sin_sq_add_cos_sq (Real.pi / 3)
    rw [Real.cos_pi_div_three] at this
    linarith
  unfold dist2 to3d unitVec
  rw [h0, h60]
  simp only [Real.cos_zero, Real.sin_zero, Real.cos_pi_div_three]
  nlinarith

/-- A source grid with a resolution of about 7 km on the sphere of the GRIB standard. -/
example : (7000 : ℝ) * (1 + 4 / 500) < 6367470 - 3 / 2 := by norm_num

/-- A corner across the pole: a target at longitude 10, a source point at latitude 80 and longitude 170. -/
example : correctLatLon 10 80 170 = (100, -10) := by
  have hf : ⌊(170 + 180 : ℝ) / 360⌋ = 0 := by rw [Int.floor_eq_iff]; norm_num
  unfold correctLatLon refSystem wrap180 fmod sgn
  norm_num [hf, abs_of_neg]

/-- C86: a source point within 90 degrees of longitude of the target keeps its coordinates. -/
theorem corner_kept (lonIn lat lon : ℝ) (h1 : -180 < lon) (h2 : lon ≤ 180) (h : |lonIn - lon| ≤ 90) :
    correctLatLon lonIn lat lon = (lat, lon) := by
  have hw : wrap180 lon = lon := by
    unfold wrap180
    rw [if_neg (by linarith)]
  obtain ⟨ha, hb⟩ := abs_le.1 h
  have hr : refSystem lonIn lon = lon := by
    unfold refSystem
    split_ifs <;> first | rfl | (exfalso; linarith)
  unfold correctLatLon
  dsimp only
  rw [hw, hr, if_neg (by linarith), hr]

example : correctLatLon 90 45 180 = (45, 180) := corner_kept 90 45 180 (by norm_num) (by norm_num) (by norm_num)

end PyG2P
