import Verif.Model.ScipyNear

/-! # Plane geometry of the bilinear and triangulation methods —
src/pyg2p/main/interpolation/scipy_interpolation_lib.py

Coordinates are exact rational numbers. The column with the field value in `corners_points` is left out: the output is
computed from the stored weights and indexes (interpolation/__init__.py 247-248). -/

namespace PyG2P
namespace ScipyLib

/-- A point of the latitude/longitude plane: `pt[0]`, `pt[1]`. -/
structure Pt where
  lat : ℚ
  lon : ℚ
  deriving DecidableEq

/-- A row of `corners_points`: the point (columns 0 and 1) and the index of the source point (column 3). -/
structure Corner where
  pt : Pt
  ix : Nat
  deriving DecidableEq

/-! ## Order of the corners -/

/-- lines 139: `lon * 1000 + lat`. -/
def cornerKey (c : Corner) : ℚ := c.pt.lon * 1000 + c.pt.lat

/-- lines 142-157 for the corners in the order of `idx_ordered_points`. -/
def clockwiseSorted : List Corner → Option (Corner × Corner × Corner × Corner)
  | [l0, l1, r0, r1] =>
    let (bl, tl) := if l0.pt.lat ≤ l1.pt.lat then (l0, l1) else (l1, l0)
    let (br, tr) := if r0.pt.lat ≤ r1.pt.lat then (r0, r1) else (r1, r0)
    some (bl, br, tr, tl)
  | _ => none

/-- lines 136-157 (`get_clockwise_points`): `p1, p2, p3, p4`. (`np.argsort` of four elements is an insertion sort;
only the order of corners with equal keys depends on that.) -/
def clockwise (l : List Corner) : Option (Corner × Corner × Corner × Corner) :=
  clockwiseSorted (l.insertionSort fun a b => cornerKey a ≤ cornerKey b)

/-! ## Segments, triangles, quadrilaterals -/

/-- `np.cross` of two plane vectors. -/
def cross (a b : ℚ × ℚ) : ℚ := a.1 * b.2 - a.2 * b.1

/-- lines 256-266 (`intersection`): whether the segments `p p'` and `q q'` meet in an inner point of both. -/
def segmentsMeet (p p' q q' : Pt) : Bool :=
  let r := (p'.lat - p.lat, p'.lon - p.lon)
  let s := (q'.lat - q.lat, q'.lon - q.lon)
  let d := (q.lat - p.lat, q.lon - p.lon)
  let rxs := cross r s
  if rxs = 0 then false
  else
    let t := cross d s / rxs
    let u := cross d r / rxs
    decide (0 < t ∧ t < 1) && decide (0 < u ∧ u < 1)

/-- lines 268-271 (`isConvexQuadrilateral`). -/
def isConvex (p1 p2 p3 p4 : Pt) : Bool := segmentsMeet p1 p3 p2 p4

/-- lines 291-292 (`sign`). -/
def side (p1 p2 p3 : Pt) : ℚ := (p1.lat - p3.lat) * (p2.lon - p3.lon) - (p2.lat - p3.lat) * (p1.lon - p3.lon)

/-- lines 295-303 (`isPointInTriangle`). -/
def inTriangle (pt v1 v2 v3 : Pt) : Bool :=
  let d1 := side pt v1 v2
  let d2 := side pt v2 v3
  let d3 := side pt v3 v1
  let hasNeg := decide (d1 < 0) || decide (d2 < 0) || decide (d3 < 0)
  let hasPos := decide (0 < d1) || decide (0 < d2) || decide (0 < d3)
  !(hasNeg && hasPos)

/-- lines 311-315 (`isPointInQuadrilateral`) for `is_convex = True` (the only way it is called). -/
def inQuadrilateral (pt v1 v2 v3 v4 : Pt) : Bool := inTriangle pt v1 v2 v3 || inTriangle pt v1 v4 v3

/-! ## Bilinear weights -/

/-- `np.clip(x, 0, 1)`. -/
def clip01 (x : ℚ) : ℚ := min (max x 0) 1

/-- lines 1315-1321, 1494-1500: the weights of `p1, p2, p3, p4` for the root `(alpha, beta)` that `fsolve` returned. -/
def bilinearWeights (root : ℚ × ℚ) : ℚ × ℚ × ℚ × ℚ :=
  let a := clip01 root.1
  let b := clip01 root.2
  ((1 - a) * (1 - b), a * (1 - b), a * b, (1 - a) * b)

/-- lines 1336-1343 (`_functionAlphaBeta`): the function `fsolve` looks for a root of. -/
def alphaBeta (target p1 p2 p3 p4 : Pt) (v : ℚ × ℚ) : ℚ × ℚ :=
  let a := v.1
  let b := v.2
  ((1 - a) * (1 - b) * p1.lat + a * (1 - b) * p2.lat + a * b * p3.lat + (1 - a) * b * p4.lat - target.lat,
   (1 - a) * (1 - b) * p1.lon + a * (1 - b) * p2.lon + a * b * p3.lon + (1 - a) * b * p4.lon - target.lon)

/-! ## Barycentric weights -/

/-- `tri.transform[simplex]` of `scipy.spatial.Delaunay`: the inverse of the matrix with columns `v1 - v3`, `v2 - v3`,
and `v3`; `none` (NaN) for a degenerate simplex. -/
def transform (v1 v2 v3 : Pt) : Option ((ℚ × ℚ) × (ℚ × ℚ) × Pt) :=
  let a := v1.lat - v3.lat
  let b := v2.lat - v3.lat
  let c := v1.lon - v3.lon
  let d := v2.lon - v3.lon
  let det := a * d - b * c
  if det = 0 then none else some ((d / det, -b / det), (-c / det, a / det), v3)

/-- lines 1508-1509: `b = transform[:2] · (p - transform[2])`, weights `b, 1 - sum(b)`. -/
def barycentric (v1 v2 v3 p : Pt) : Option (ℚ × ℚ × ℚ) :=
  match transform v1 v2 v3 with
  | none => none
  | some (r1, r2, r) =>
    let x := p.lat - r.lat
    let y := p.lon - r.lon
    let b1 := r1.1 * x + r1.2 * y
    let b2 := r2.1 * x + r2.2 * y
    some (b1, b2, 1 - (b1 + b2))

/-! ## Periodic extension -/

/-- line 1356: longitudes above 180 become negative. -/
def normLon (x : ℚ) : ℚ := if 180 < x then x - 360 else x

/-- `np.where(cond)`. -/
def whereIdx (l : List ℚ) (c : ℚ → Bool) : List Nat := (List.range l.length).filter fun i => ((l[i]?).map c).getD false

/-- line 1363: 1.5 times the distance of the first two longitudes (at least two points). -/
def lonRes (lons : List ℚ) : ℚ := |(lons[0]?).getD 0 - (lons[1]?).getD 0| * (3 / 2)

def lmax : List ℚ → ℚ
  | [] => 0
  | x :: l => l.foldl max x
def lmin : List ℚ → ℚ
  | [] => 0
  | x :: l => l.foldl min x

/-- line 1364: `is_global_map`. -/
def isGlobal (lons : List ℚ) : Bool := decide (360 - (lmax lons - lmin lons) < lonRes lons)

/-- lines 1367-1369: `original_indexes` (longitudes already normalised). -/
def originalIndexes (lons : List ℚ) : List Nat :=
  whereIdx lons (fun x => decide (lmax lons - lonRes lons * 2 < x)) ++
    whereIdx lons (fun x => decide (x < lmin lons + lonRes lons * 2))

/-- lines 1371-1377: the points of the extended source grid. -/
def padded (pts : List Pt) : List Pt :=
  let lons := pts.map (·.lon)
  pts ++ (pts.filter fun p => decide (lmax lons - lonRes lons * 2 < p.lon)).map (fun p => ⟨p.lat, p.lon - 360⟩) ++
    (pts.filter fun p => decide (p.lon < lmin lons + lonRes lons * 2)).map fun p => ⟨p.lat, p.lon + 360⟩

/-- lines 1354-1386: whether the source grid is global, and the points given to the triangulation. No source point:
`max()` of an empty array; one only: `normalized_longrib[1]` fails. -/
def triSource (pts : List Pt) : Py (Bool × List Pt) :=
  match pts with
  | [] => .error .valueError
  | [_] => .error .indexError
  | _ =>
    let q := pts.map fun p => (⟨p.lat, normLon p.lon⟩ : Pt)
    if isGlobal (q.map (·.lon)) then .ok (true, padded q) else .ok (false, q)

/-- line 1513: indexes of the extended grid mapped back; `n` is the number of source points. An index outside
`original_indexes` raises. -/
def remap (n : Nat) (orig : List Nat) (i : Nat) : Py Nat :=
  if n < i then
    match orig[i - n]? with
    | some j => .ok j
    | none => .error .indexError
  else .ok i

/-- lines 1440-1509 and 1513, mode `triangulation` (`nnear = 3`), one cell: `simplex` are the three vertexes `Delaunay`
found (indexes into the extended grid, `scaled` their coordinates in the plane of the triangulation), `outside` whether
the cell is left out (1447-1451, 1457-1462). Weights and stored indexes. -/
def triRow (n : Nat) (global : Bool) (orig : List Nat) (outside : Bool) (i1 i2 i3 : Nat) (v1 v2 v3 p : Pt) :
    Py (List (Num × Nat)) := do
  let back : Nat → Py Nat := fun i => if global then remap n orig i else .ok i
  let j1 ← back i1
  let j2 ← back i2
  let j3 ← back i3
  if outside then .ok [(.nan, j1), (.nan, j2), (.nan, j3)]
  else match barycentric v1 v2 v3 p with
    | none => .ok [(.nan, j1), (.nan, j2), (.nan, j3)]
    | some (b1, b2, b3) => .ok [(.fin b1, j1), (.fin b2, j2), (.fin b3, j3)]

end ScipyLib
end PyG2P
