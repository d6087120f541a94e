import Verif.Model.Angle

/-! # Mode `bilinear_delaunay` — src/pyg2p/main/interpolation/scipy_interpolation_lib.py 1345-1516

`_build_weights_triangulation(use_bilinear=True)`, `nnear = 4`. The triangulation (`scipy.spatial.Delaunay`), the
triangle of every target cell (`find_simplex`), the distance tests that leave a cell out (1449, 1457-1460) and the
root `fsolve` returns are given. Coordinates are exact rational numbers, angles real numbers. `-1` (no triangle, no
neighbour, no partner, no fourth point) is `none`. The progress messages are left out (they fail for targets of fewer
than 250 cells, as in the other scipy modes), and so is `result`, which is not used: the output is computed from the
stored weights and indexes (interpolation/__init__.py 247-248). -/

namespace PyG2P
namespace ScipyLib

/-- A row of `tri.simplices` and of `tri.neighbors` (the neighbour opposite to each vertex). -/
structure Tri where
  v0 : Nat
  v1 : Nat
  v2 : Nat
  n0 : Option Nat
  n1 : Option Nat
  n2 : Option Nat
  deriving DecidableEq

def Tri.ids (T : Tri) : List Nat := [T.v0, T.v1, T.v2]
def Tri.nbs (T : Tri) : List (Option Nat) := [T.n0, T.n1, T.n2]

/-- The triangulation (1397) of the points `gribpoints_scaled` (1387-1395), and the coordinates
`normalized_latgrib`, `normalized_longrib` of the points. -/
structure Mesh where
  tris : List Tri
  scaled : Nat → Pt
  plain : Nat → Pt

/-- A target cell: its triangle (`idxs_tri[nn]`, 1422), whether the distance tests leave it out (1449, 1457-1460),
its coordinates `p[nn]` (1399) and `p_scaled[nn]` (1410). -/
structure DCell where
  tri : Option Nat
  far : Bool
  p : Pt
  q : Pt

/-- lines 1470-1471, 1476-1477. -/
noncomputable def foldAngle (a : ℝ) : ℝ := if 180 < a then 360 - a else a

/-- lines 1472-1473, 1478-1479 for the angles at the first two vertexes (`np.argmax`: the first of equal ones). -/
noncomputable def pickAngle (a0 a1 : ℝ) : Nat :=
  if 90 ≤ a0 then 0
  else
    let a2 := 180 - a0 - a1
    if a1 ≤ a0 ∧ a2 ≤ a0 then 0 else if a2 ≤ a1 then 1 else 2

/-- lines 1468-1479: the number of the vertex with the widest angle. -/
noncomputable def widest (v0 v1 v2 : Pt) : Nat :=
  pickAngle (foldAngle (getAngle v2 v0 v1)) (foldAngle (getAngle v0 v1 v2))

/-- line 1480: `idxs_tri_neighbors[nn, idx_to_use]`. -/
noncomputable def Mesh.favourite (M : Mesh) (T : Tri) : Option Nat :=
  (T.nbs[widest (M.scaled T.v0) (M.scaled T.v1) (M.scaled T.v2)]?).getD none

/-- `tri.simplices[idxs_tri[nn]]` and `tri.neighbors[idxs_tri[nn]]`: `-1` reads the last triangle. -/
def Mesh.rowOf (M : Mesh) (c : DCell) : Option Tri :=
  match c.tri with
  | some t => M.tris[t]?
  | none => M.tris.getLast?

/-- A neighbour number plus one (`-1 + 1` is 0). -/
def slotsFor : Option Nat → Nat
  | none => 0
  | some k => k + 1

/-- line 1440: `idxs_tri_neighbors.max() + 1`. -/
def Mesh.slots (M : Mesh) (cells : List DCell) : Nat :=
  ((cells.filterMap M.rowOf).flatMap Tri.nbs).foldl (fun m u => max m (slotsFor u)) 0

/-- `idxs_tri_neighbors_to_use[i]`. -/
def slot (st : List (Option Nat)) (i : Nat) : Py (Option Nat) :=
  match st[i]? with
  | some r => .ok r
  | none => .error .indexError

/-- lines 1480-1483 for triangle `t` with the neighbour `fav` on the longest side; then line 1484 reads the partner of
`t`. -/
def pairTri (st : List (Option Nat)) (t : Nat) (fav : Option Nat) : Py (List (Option Nat) × Option Nat) := do
  let st' ← match fav with
    | none => (.ok st : Py (List (Option Nat)))
    | some u => do
      let own ← slot st t
      match own with
      | some _ => .ok st
      | none =>
        let other ← slot st u
        match other with
        | some _ => .ok st
        | none => .ok ((st.set t (some u)).set u (some t))
  let r ← slot st' t
  .ok (st', r)

/-- line 1485: `np.unique(np.append(...))`. -/
def unique (l : List Nat) : List Nat := (l.insertionSort (· ≤ ·)).dedup

/-- lines 1485-1504: the four points of triangle `T` and its partner `U`, clockwise, with the bilinear weights. An array
of another length does not fit into the row of four indexes. -/
def quadRow (M : Mesh) (root : Pt → Pt → Pt → Pt → Pt → ℚ × ℚ) (T U : Tri) (c : DCell) : Py (List (Num × Option Nat)) :=
  match clockwise ((unique (T.ids ++ U.ids)).map fun i => ⟨M.plain i, i⟩) with
  | none => .error .valueError
  | some (p1, p2, p3, p4) =>
    let (w1, w2, w3, w4) := bilinearWeights (root c.p p1.pt p2.pt p3.pt p4.pt)
    .ok [(.fin w1, some p1.ix), (.fin w2, some p2.ix), (.fin w3, some p3.ix), (.fin w4, some p4.ix)]

/-- lines 1509-1510: the barycentric weights of triangle `T` and a fourth weight 0 for the index `-1` (1438). -/
def triRow4 (M : Mesh) (T : Tri) (c : DCell) : List (Num × Option Nat) :=
  match barycentric (M.scaled T.v0) (M.scaled T.v1) (M.scaled T.v2) c.q with
  | none => [(.nan, some T.v0), (.nan, some T.v1), (.nan, some T.v2), (.fin 0, none)]
  | some (b1, b2, b3) => [(.fin b1, some T.v0), (.fin b2, some T.v1), (.fin b3, some T.v2), (.fin 0, none)]

/-- lines 1451, 1462: the row of a cell that is left out. -/
def outRow (T : Tri) : List (Num × Option Nat) :=
  [(.nan, some T.v0), (.nan, some T.v1), (.nan, some T.v2), (.nan, none)]

/-- lines 1448-1511, one cell. -/
noncomputable def cellStep (M : Mesh) (root : Pt → Pt → Pt → Pt → Pt → ℚ × ℚ) (st : List (Option Nat)) (c : DCell) :
    Py (List (Option Nat) × List (Num × Option Nat)) :=
  match M.rowOf c with
  | none => .error .indexError
  | some T =>
    match c.tri with
    | none => .ok (st, outRow T)
    | some t =>
      if c.far then .ok (st, outRow T)
      else do
        let (st', r) ← pairTri st t (M.favourite T)
        match r with
        | none => .ok (st', triRow4 M T c)
        | some u =>
          match M.tris[u]? with
          | none => .error .indexError
          | some U => do
            let row ← quadRow M root T U c
            .ok (st', row)

/-- lines 1442-1511: the cells in order; the partners found so far are kept. -/
noncomputable def cellLoop (M : Mesh) (root : Pt → Pt → Pt → Pt → Pt → ℚ × ℚ) :
    List (Option Nat) → List DCell → Py (List (List (Num × Option Nat)))
  | _, [] => .ok []
  | st, c :: cs => do
    let (st', row) ← cellStep M root st c
    let rows ← cellLoop M root st' cs
    .ok (row :: rows)

/-- line 1513: an index of the extended grid of a global map is mapped back (`-1` stays). -/
def remapEntry (n : Nat) (orig : Option (List Nat)) (e : Num × Option Nat) : Py (Num × Option Nat) :=
  match orig, e.2 with
  | some o, some i => do
    let j ← remap n o i
    .ok (e.1, some j)
  | _, _ => .ok e

def remapRow (n : Nat) (orig : Option (List Nat)) (row : List (Num × Option Nat)) : Py (List (Num × Option Nat)) :=
  row.mapM (remapEntry n orig)

/-- lines 1436-1513: weights and indexes of all cells. `orig` is `original_indexes` if the source is a global map of `n`
points. -/
noncomputable def delaunayTable (M : Mesh) (root : Pt → Pt → Pt → Pt → Pt → ℚ × ℚ) (n : Nat) (orig : Option (List Nat))
    (cells : List DCell) : Py (List (List (Num × Option Nat))) := do
  let rows ← cellLoop M root (List.replicate (M.slots cells) none) cells
  rows.mapM (remapRow n orig)

/-- interpolation/__init__.py 142-155: the stored index `-1` reads the last element of `np.append(v, mv)`, the appended
missing value, which has index `n`. -/
def stored (n : Nat) (row : List (Num × Option Nat)) : List (Nat × Num) := row.map fun e => (e.2.getD n, e.1)

end ScipyLib
end PyG2P
