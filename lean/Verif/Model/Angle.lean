import Verif.Model.Bilinear
import Mathlib.Analysis.SpecialFunctions.Complex.Arg

/-! # The vertex given up when the corners are not convex —
src/pyg2p/main/interpolation/scipy_interpolation_lib.py 273-289

Real numbers; `math.atan2(y, x)` is the argument of `x + i y` (0 for `x = y = 0`, as in Python). -/

namespace PyG2P
namespace ScipyLib

/-- `math.atan2(q[1] - p[1], q[0] - p[0])`. -/
noncomputable def dirAngle (p q : Pt) : ℝ := Complex.arg ⟨((q.lat - p.lat : ℚ) : ℝ), ((q.lon - p.lon : ℚ) : ℝ)⟩

/-- lines 274-276 (`get_angle`), in degrees. -/
noncomputable def getAngle (a b c : Pt) : ℝ :=
  let angle := (dirAngle b c - dirAngle b a) * 180 / Real.pi
  if angle < 0 then angle + 360 else angle

open Classical in
/-- lines 279-288 (`getNonConvexVertex`): the index of the first vertex, in the order p2, p3, p4, p1, with an angle of at
least 179.9 degrees. -/
noncomputable def nonConvexVertex (p1 p2 p3 p4 : Corner) : Option Nat :=
  if 179.9 ≤ getAngle p1.pt p2.pt p3.pt then some p2.ix
  else if 179.9 ≤ getAngle p2.pt p3.pt p4.pt then some p3.ix
  else if 179.9 ≤ getAngle p3.pt p4.pt p1.pt then some p4.ix
  else if 179.9 ≤ getAngle p4.pt p1.pt p2.pt then some p1.ix
  else none

end ScipyLib
end PyG2P
