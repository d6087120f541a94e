import Verif.Model.StoreRun
import Verif.Model.ScipyGeom

/-! # Runs that compute their table — interpolation/__init__.py 60-139, 225-371, controller.py 32-138

One GRIB file, one grid; the methods `nearest` and `invdist` (search tree), `triangulation`, `grib_nearest` and
`grib_invdist` (each also in parallel). -/

namespace PyG2P
variable {n k : Nat}

/-- interpolation/__init__.py 149-159, 250: the table made of what the search-tree library returns for a target of `k`
cells: one index for each cell, or a row of indexes and weights. -/
def Table.ofPart (k : Nat) : ScipyLib.Part Num → Table k
  | .flat l => .nearest fun c => (l.getD c (.nan, 0)).2
  | .table rows => .weighted fun c => (rows.getD c []).map fun p => (p.2, p.1)

/-- interpolation/__init__.py 289-291: the table made of what the GRIB library returns; `np.asarray` of arrays of
different lengths raises. Rows and columns are those of cells of the target (grib_interpolation_lib.py 27-29), so that the
test on the cell number never fails. -/
def Table.ofGrib (k cols : Nat) (t : GribLib.NearestTbl) : Py (Table k) :=
  if t.1.length = t.2.1.length ∧ t.2.1.length = t.2.2.length then
    .ok (.gribNearest ((t.1.zip (t.2.1.zip t.2.2)).filterMap fun e =>
      if h : e.1.toNat * cols + e.2.1.toNat < k then some (⟨_, h⟩, e.2.2.toNat) else none))
  else .error .valueError

/-- interpolation/__init__.py 345-350: the table made of what the GRIB library returns for inverse distances; `np.asarray`
of arrays of different lengths raises, and so does `np.rec.fromarrays`. The test on the cell number: as in `ofGrib`. -/
def Table.ofInv (k cols : Nat) (t : GribLib.InvTbl) : Py (Table k) :=
  if t.ys.length = t.xs.length ∧ (∀ j, (t.idx j).length = t.xs.length) ∧ ∀ j, (t.coeff j).length = t.xs.length then
    .ok (.gribInvdist ((List.range t.xs.length).filterMap fun i =>
      let point := fun j => (((t.idx j).getD i 0).toNat, (t.coeff j).getD i 0)
      if h : (t.xs.getD i 0).toNat * cols + (t.ys.getD i 0).toNat < k then
        some ⟨⟨_, h⟩, point 0, point 1, point 2, point 3⟩
      else none))
  else .error .valueError

namespace ScipyLib

/-- What the libraries answer for a target cell (scipy_interpolation_lib.py 1384, 1398-1431, 1449-1458): the nearest source
point; the corners of the triangle found by `find_simplex` (indexes into the extended grid), and, in the plane of the
triangulation, their places and the place of the cell; the lengths of the sides. -/
structure TriCell where
  near : ℚ × Nat
  simplex : Option (Nat × Nat × Nat)
  v1 : Pt
  v2 : Pt
  v3 : Pt
  p : Pt
  sides : ℚ × ℚ × ℚ

/-- scipy_interpolation_lib.py 1447-1458: is the cell left out? -/
def TriCell.out (bound : ℚ) (global : Bool) (c : TriCell) : Bool :=
  c.simplex.isNone || (!global && decide (bound < c.near.1)) ||
    (!global && (decide (bound * 10 < c.sides.1) || decide (bound * 10 < c.sides.2.1) ||
      decide (bound * 10 < c.sides.2.2)))

/-- scipy_interpolation_lib.py 1348-1520 for mode `triangulation`; `last`: the last triangle (`simplices[-1]`), whose corners
are stored for a cell in no triangle. -/
def triPart {τ : Type} (tty : Bool) (bound : ℚ) (pts : List Pt) (last : Nat × Nat × Nat) (cell : τ → TriCell)
    (grid : List (List τ)) : Py (Part Num) := do
  let (global, _) ← triSource pts
  let cells := grid.flatten.map cell
  if GribLib.progressStep tty cells.length = 0 ∧ cells ≠ [] then .error .zeroDivision
  else
    let orig := originalIndexes (pts.map fun p => normLon p.lon)
    let rows ← cells.mapM fun c =>
      let i := c.simplex.getD last
      triRow pts.length global orig (c.out bound global) i.1 i.2.1 i.2.2 c.v1 c.v2 c.v3 c.p
    .ok (.table rows)

end ScipyLib

/-- The method of interpolation (option `interpolation.mode`) with what its library answers. For the search trees:
`tty`: is the output a terminal; `nj`: rows of the source grid; `src`: the neighbours of every source point among the
source points (two for each); `query`: the neighbours of every target cell. For triangles: the source points, the last
triangle, what is known about every cell. For the GRIB library: `par`: option `-X`; `find`:
`codes_grib_find_nearest`; missing value, columns and coordinates of the target. -/
inductive Method (k : Nat) where
  | nearest (tty : Bool) (nj : Nat) (src : List ScipyLib.Nbrs) (query : Fin k → ℚ × Nat)
  | invdist (nj : Nat) (src : List ScipyLib.Nbrs) (query : Fin k → ScipyLib.Nbrs)
  | triangulation (tty : Bool) (nj : Nat) (src : List ScipyLib.Nbrs) (pts : List ScipyLib.Pt) (last : Nat × Nat × Nat)
      (cell : Fin k → ScipyLib.TriCell)
  | gribNearest (tty par : Bool) (find : Num → Num → Option Nat) (mv : Num) (cols : Nat) (cells : Fin k → GribLib.Cell)
  | gribInvdist (tty par : Bool) (find : Num → Num → Option (Fin 4 → Nat × ℚ)) (mv : Num) (cols : Nat)
      (cells : Fin k → GribLib.Cell)

namespace Method

/-- interpolation/__init__.py 22-23, 38, 55: is the method one of those with a search tree? -/
def scipy : Method k → Bool
  | .nearest .. => true
  | .invdist .. => true
  | .triangulation .. => true
  | .gribNearest .. => false
  | .gribInvdist .. => false

/-- interpolation/__init__.py 286, 336-345: does the method check that the registry can be written before it computes a
table? (The search trees always do.) -/
def checks : Method k → Bool
  | .gribInvdist .. => false
  | _ => true

/-- interpolation/__init__.py 23, 240-248 (1, 4 and 3 neighbours), 288-291, 345-350: the table computed. `splits`:
option `-ns`; `rows`: the cells of the target, row by row. -/
def build (splits : Option Nat) (rows : List (List (Fin k))) : Method k → Py (Table k)
  | .nearest tty nj src query =>
    (ScipyLib.interpolate 1 splits
      (ScipyLib.nearestPart tty src.length (ScipyLib.minUpperBound nj src) query) rows).map (Table.ofPart k)
  | .invdist nj src query =>
    (ScipyLib.interpolate 4 splits
      (ScipyLib.invdistPart src.length 4 (ScipyLib.minUpperBound nj src) query) rows).map (Table.ofPart k)
  | .triangulation tty nj src pts last cell =>
    (ScipyLib.interpolate 3 splits
      (ScipyLib.triPart tty (ScipyLib.minUpperBound nj src) pts last cell) rows).map (Table.ofPart k)
  | .gribNearest tty par find mv cols cells =>
    match if par then GribLib.gribNearestParallel find mv rows.length cols (List.ofFn cells)
      else GribLib.gribNearest tty find mv cols (List.ofFn cells) with
    | .error e => .error e
    | .ok t => Table.ofGrib k cols t
  | .gribInvdist tty par find mv cols cells =>
    match if par then GribLib.gribInvdistParallel find mv rows.length cols (List.ofFn cells)
      else GribLib.gribInvdist tty find mv cols (List.ofFn cells) with
    | .error e => .error e
    | .ok t => Table.ofInv k cols t

/-- interpolation/__init__.py 60-66: what a run looks for. -/
def lookup (m : Method k) (splits : Option Nat) (rows : List (List (Fin k))) (run : TblRun) : Lookup k :=
  ⟨m.scipy, m.checks, run, m.build splits rows⟩

end Method

/-- controller.py 83-138 with PCRaster output, tables looked up or created for every map. -/
def FileIn.pcrasterIn (le : Str → Str → Bool) (ne : NumExpr) (w : Store (Table k)) (q : Lookup k) (x : FileIn n k) :
    Outcome k (Str × (Fin k → Num)) :=
  match x.settings with
  | .error e => ⟨[], some e, w⟩
  | .ok r => r.pcrasterIn le ne w q q

end PyG2P
