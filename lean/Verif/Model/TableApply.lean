import Verif.Model.Numeric

/-! # Applying an interpolation table — src/pyg2p/main/interpolation/__init__.py

The source field has `n` points, the target grid `m` cells (2-d index flattened). Source indexes are
those stored in the table; an index outside the source raises `IndexError` (tables hold no negative
index). Assumed numpy behaviour: `np.append(v, x)` of a masked array is an array holding the raw data
and no mask; `np.einsum` works on the raw data. -/

namespace PyG2P
namespace TableApply
variable {n m : Nat}

/-- `v[k]` for one index of the table. -/
def srcAt (v : Arr n) (k : Nat) : Py (Num × Bool) :=
  if h : k < n then .ok (v.data ⟨k, h⟩, v.masked ⟨k, h⟩) else .error .indexError

/-- `np.append(v, mv)[k]`: index `n` is the appended missing value. -/
def srcMv (v : Arr n) (mv : Num) (k : Nat) : Py Num :=
  if h : k < n then .ok (v.data ⟨k, h⟩) else if k = n then .ok mv else .error .indexError

/-- `result[xs, ys] = vals` one cell at a time, in order. -/
def put (r : Fin m → Num) (c : Fin m) (x : Num) : Fin m → Num := fun c' => if c' = c then x else r c'

/-- interpolation/__init__.py 270-275 and 311-313 (`grib_nearest`, once the table is known):
`result` filled with `mv_out`, then `result[xs, ys] = result_masked(v[idxs], mv_out)`. -/
def gribNearest (v : Arr n) (mv : Num) (tbl : List (Fin m × Nat)) : Py (Fin m → Num) :=
  tbl.foldlM (fun r e => do
    let (x, masked) ← srcAt v e.2
    .ok (put r e.1 (if masked then mv else x))) (fun _ => mv)

/-- One row of the inverse distance table: target cell, four (index, coefficient) pairs. -/
structure Row (m : Nat) where
  cell : Fin m
  p1 : Nat × Num
  p2 : Nat × Num
  p3 : Nat × Num
  p4 : Nat × Num

/-- interpolation/__init__.py 315-320 and 369-371 (`grib_inverse_distance`, once the table is known):
`v[idxs1]*coeffs1 + ... + v[idxs4]*coeffs4`, masked as soon as one of the four values is. -/
def gribInvdist (v : Arr n) (mv : Num) (tbl : List (Row m)) : Py (Fin m → Num) :=
  tbl.foldlM (fun r e => do
    let (x1, m1) ← srcAt v e.p1.1
    let (x2, m2) ← srcAt v e.p2.1
    let (x3, m3) ← srcAt v e.p3.1
    let (x4, m4) ← srcAt v e.p4.1
    let x := x1 * e.p1.2 + x2 * e.p2.2 + x3 * e.p3.2 + x4 * e.p4.2
    .ok (put r e.cell (if m1 || m2 || m3 || m4 then mv else x))) (fun _ => mv)

/-- interpolation/__init__.py 142-153 (`_interpolate_scipy_append_mv`, `nnear = 1`): one index per
target cell. The mask of `v` is gone after `np.append`. -/
def scipyNearest (v : Arr n) (mv : Num) (idx : List Nat) : Py (List Num) := idx.mapM (srcMv v mv)

/-- interpolation/__init__.py 154-155 (`np.einsum('ij,ij->i', weights, v[indexes])`). -/
def scipyWeighted (v : Arr n) (mv : Num) (rows : List (List (Nat × Num))) : Py (List Num) :=
  rows.mapM fun row => do
    let xs ← row.mapM fun p => do
      let x ← srcMv v mv p.1
      .ok (p.2 * x)
    .ok (xs.foldl (· + ·) 0)

end TableApply
end PyG2P
