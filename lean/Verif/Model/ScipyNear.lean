import Verif.Model.GribLib

/-! # Tables of the scipy methods: nearest neighbour, inverse distance, splits —
src/pyg2p/main/interpolation/scipy_interpolation_lib.py

A target cell is any value `t : τ`; the KD-tree is an argument: `query t` is the row of distances and indexes
`tree.query` returns for the location of the cell, nearest first. Distances are exact; the source has `n` points, at
least as many as neighbours are asked for (for the missing ones `cKDTree` returns distance `inf` and index `n`).
Printing is dropped, except that `i % 0` raises. -/

namespace PyG2P
namespace ScipyLib

/-- Distances and indexes of the neighbours of one point. -/
abbrev Nbrs := List (ℚ × Nat)

/-- lines 568-570 (`__init__`): the bound for the distance, from the distances of every source point to its two
nearest source points (the first is the point itself); `nj`: the number of rows of the source grid. -/
def minUpperBound (nj : Nat) (src : List Nbrs) : ℚ :=
  let m := ((src.flatten).map (·.1)).foldl max 0
  m + m * 4 / nj

/-- lines 709-722 (`_build_nn`): the loop over the cells; `n` (`z.size`) marks a cell without neighbour. -/
def nnLoop (step n : Nat) (bound : ℚ) : List (ℚ × Nat) → Py (List Nat)
  | [] => .ok []
  | (d, ix) :: rows =>
    if step = 0 then .error .zeroDivision
    else do
      let rest ← nnLoop step n bound rows
      .ok ((if d ≤ bound then ix else n) :: rest)

/-- lines 698-727 (`_build_nn`): the index stored for each cell. -/
def buildNN (tty : Bool) (n : Nat) (bound : ℚ) (rows : List (ℚ × Nat)) : Py (List Nat) :=
  nnLoop (GribLib.progressStep tty rows.length) n bound rows

/-- lines 796-812, 1025-1026, 1055-1056 (`_build_weights_invdist`, `adw_type = None`): weights and indexes of one cell.
Weights that are not set are NaN, indexes that are not set are `n`. -/
def invdistRow (n : Nat) (bound : ℚ) (row : Nbrs) : List (Num × Nat) :=
  let d0 := (row.headD (0, 0)).1
  if d0 ≤ 1 / 10000000000 then row.mapIdx fun j p => (if j = 0 then 1 else 0, p.2)
  else if d0 ≤ bound then
    let sum := (row.map fun p => 1 / p.1 ^ 2).sum
    row.map fun p => (.fin (1 / p.1 ^ 2) / .fin sum, p.2)
  else row.map fun _ => (.nan, n)

/-- lines 774-1076 (`_build_weights_invdist`, `adw_type = None`). `z[indexes]` (1036) raises when the source has fewer
points than neighbours are asked for. -/
def buildInvdist (n nnear : Nat) (bound : ℚ) (rows : List Nbrs) : Py (List (List (Num × Nat))) :=
  if n < nnear ∧ rows ≠ [] then .error .indexError else .ok (rows.map (invdistRow n bound))

/-! ## Splits -/

/-- What `interpolate_split` returns: weights and indexes of shape `(cells,)` for `nearest`, `(cells, nnear)`
otherwise. -/
inductive Part (W : Type) where
  | flat (l : List (W × Nat))
  | table (rows : List (List (W × Nat)))
  deriving DecidableEq

/-- lines 605-606: `weights[a:b, :] = subset_weights` (and the indexes) with `len = b - a` cells, with numpy's
broadcasting of a 1-d array to the rows of the slice. -/
def assign {W : Type} (nnear len : Nat) : Part W → Py (List (List (W × Nat)))
  | .table rows =>
    if rows.length = len ∧ ∀ r ∈ rows, r.length = nnear then .ok rows else .error .valueError
  | .flat l =>
    if l.length = nnear then .ok (List.replicate len l)
    else match l with
      | [x] => .ok (List.replicate len (List.replicate nnear x))
      | _ => .error .valueError

/-- lines 597-607: the loop over the blocks of rows that start at the given rows. -/
def splitLoop {τ W : Type} (nnear size : Nat) (f : List (List τ) → Py (Part W)) (grid : List (List τ)) :
    List Nat → Py (List (List (W × Nat)))
  | [] => .ok []
  | i :: is => do
    let block := (grid.drop i).take size
    let p ← f block
    let rows ← assign nnear block.flatten.length p
    let rest ← splitLoop nnear size f grid is
    .ok (rows ++ rest)

/-- lines 572-612 (`interpolate`) for a target grid given by its rows; `f` is `interpolate_split` (the global
reference radius of 574-586 is part of `f`). A negative number of splits (uninitialised arrays) is not modelled. -/
def interpolate {τ W : Type} (nnear : Nat) (splits : Option Nat) (f : List (List τ) → Py (Part W))
    (grid : List (List τ)) : Py (Part W) :=
  match splits with
  | none => f grid
  | some k =>
    if k = 0 then .error .zeroDivision
    else if grid.length / k = 0 then .error .valueError
    else do
      let size := grid.length / k
      let rows ← splitLoop nnear size f grid ((List.range ((grid.length + size - 1) / size)).map (· * size))
      .ok (.table rows)

/-- lines 615-663 (`interpolate_split`), mode `nearest`; the stored weights are the distances. -/
def nearestPart {τ : Type} (tty : Bool) (n : Nat) (bound : ℚ) (query : τ → ℚ × Nat) (grid : List (List τ)) :
    Py (Part Num) := do
  let rows := grid.flatten.map query
  let ix ← buildNN tty n bound rows
  .ok (.flat ((rows.map fun p => Num.fin p.1).zip ix))

/-- lines 615-663 (`interpolate_split`), mode `invdist`. -/
def invdistPart {τ : Type} (n nnear : Nat) (bound : ℚ) (query : τ → Nbrs) (grid : List (List τ)) : Py (Part Num) := do
  let rows ← buildInvdist n nnear bound (grid.flatten.map query)
  .ok (.table rows)

/-- interpolation/__init__.py 247-248: the field interpolated with a new table; a table of shape `(cells,)` is used as
one index per cell. -/
def applyPart {n : Nat} (v : Arr n) (mv : Num) : Part Num → Py (List Num)
  | .flat l => TableApply.scipyNearest v mv (l.map (·.2))
  | .table rows => TableApply.scipyWeighted v mv (rows.map fun r => r.map fun p => (p.2, p.1))

end ScipyLib
end PyG2P
