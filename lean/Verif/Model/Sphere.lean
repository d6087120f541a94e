import Verif.Model.ScipyNear
import Mathlib.Analysis.SpecialFunctions.Trigonometric.Basic
import Mathlib.Algebra.Order.Floor.Ring

/-! # Coordinates on the sphere — src/pyg2p/main/interpolation/scipy_interpolation_lib.py

Real numbers without rounding. -/

namespace PyG2P
namespace ScipyLib
noncomputable section

/-- A point in space. -/
structure V3 where
  x : ℝ
  y : ℝ
  z : ℝ

/-- `np.radians`. -/
def rad (d : ℝ) : ℝ := d * Real.pi / 180

/-- lines 669-671: the formulas `x_formula`, `y_formula`, `z_formula`; degrees. -/
def unitVec (lat lon : ℝ) : V3 :=
  ⟨Real.cos (rad lon) * Real.cos (rad lat), Real.sin (rad lon) * Real.cos (rad lat), Real.sin (rad lat)⟩

/-- lines 685-689 (`to_3d`): no rotation, radius `r`. -/
def to3d (r lat lon : ℝ) : V3 :=
  let v := unitVec lat lon
  ⟨r * v.x, r * v.y, r * v.z⟩

/-- lines 673-678 (`to_3d`, `to_regular`): `latSP`, `lonSP` the southern pole of the rotated grid. -/
def toRegular (latSP lonSP lat lon : ℝ) : V3 :=
  let t := -rad (90 + latSP)
  let f := -rad lonSP
  let v := unitVec lat lon
  ⟨Real.cos t * Real.cos f * v.x + Real.sin f * v.y + Real.sin t * Real.cos f * v.z,
   Real.cos t * Real.sin f * v.x + Real.cos f * v.y - Real.sin t * Real.sin f * v.z,
   -Real.sin t * v.x + Real.cos t * v.z⟩

/-- lines 679-684 (`to_3d`, `rotate`). -/
def rotate (latSP lonSP lat lon : ℝ) : V3 :=
  let t := rad (90 + latSP)
  let f := rad lonSP
  let v := unitVec lat lon
  ⟨Real.cos t * Real.cos f * v.x + Real.cos t * Real.sin f * v.y + Real.sin t * v.z,
   -Real.sin f * v.x + Real.cos f * v.y,
   -Real.sin t * Real.cos f * v.x - Real.sin t * Real.sin f * v.y + Real.cos t * v.z⟩

/-- The square of the distance the KD-tree works with. -/
def dist2 (a b : V3) : ℝ := (a.x - b.x) ^ 2 + (a.y - b.y) ^ 2 + (a.z - b.z) ^ 2

/-! ## Corner coordinates (`get_correct_lats_lons`) -/

/-- lines 99-100 and 121-122: longitudes above 180. -/
def wrap180 (l : ℝ) : ℝ := if 180 < l then l - 360 else l

/-- lines 103-112 and 125-134: the reference system of the target longitude. -/
def refSystem (lonIn l : ℝ) : ℝ :=
  if lonIn < -90 then (if 0 < l then l - 360 else l)
  else if 90 < lonIn then (if l < 0 then l + 360 else l)
  else l

/-- Python's `%` for a positive divisor. -/
def fmod (x m : ℝ) : ℝ := x - m * ⌊x / m⌋

/-- `np.sign`. -/
def sgn (x : ℝ) : ℝ := if x < 0 then -1 else if 0 < x then 1 else 0

/-- lines 92-136 (`get_correct_lats_lons`) for one of the four source points. -/
def correctLatLon (lonIn lat lon : ℝ) : ℝ × ℝ :=
  let l := refSystem lonIn (wrap180 lon)
  let p : ℝ × ℝ := if 90 < |lonIn - l| then (180 * sgn lat - lat, wrap180 (fmod (l + 180) 360)) else (lat, l)
  (p.1, refSystem lonIn p.2)

/-! ## Scaling of latitudes in the triangulation -/

/-- Largest element (`max`), for a list that is not empty. -/
def rmax : List ℝ → ℝ
  | [] => 0
  | x :: l => l.foldl max x

/-- lines 1396-1401: latitudes of the source points in the plane; `F` is the integral of `1/cos` from 0 (by degrees,
without the numerical error). -/
def sourceScaled (F : ℝ → ℝ) (lats : List ℝ) : List ℝ :=
  let s := lats.map F
  s.map fun x => x * 90 * 10 / rmax s

/-- lines 1406-1416: latitude in the plane of the cells of a target row: only the latitude of the first column is used,
and the divisor is the larger of the integral at the largest source latitude and of the error `quad` reports. -/
def targetScaled (F : ℝ → ℝ) (err : ℝ) (lats : List ℝ) (firstColumn : ℝ) : ℝ :=
  F firstColumn * 90 * 10 / max (F (rmax lats)) err

/-- lines 1406-1417 (`p_scaled`): plane coordinates of a target row, given by latitudes and longitudes. -/
def targetPlane (F : ℝ → ℝ) (err : ℝ) (lats : List ℝ) (row : List (ℝ × ℝ)) : List (ℝ × ℝ) :=
  match row with
  | [] => []
  | c :: _ => row.map fun p => (targetScaled F err lats c.1, p.2)

end
end ScipyLib
end PyG2P
