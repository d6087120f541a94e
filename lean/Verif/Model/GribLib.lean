import Verif.Model.TableApply

/-! # Creating tables with the GRIB library — src/pyg2p/main/interpolation/grib_interpolation_lib.py

A target grid of `cols` columns is the list of its cells (latitude and longitude, `ravel` order; both maps have the
same shape, no masks). `eccodes.codes_grib_find_nearest` is an argument: `none` stands for `GribInternalError`, any
other exception is not modelled. Distances are exact; `1 / distance` does not overflow. Printing of the progress is
dropped, except that `i % 0` raises. Each iteration of the loops touches only entry `i` of the arrays, so the arrays
are given by one tuple per cell. Assumed: dask's `bag.map(...).compute()` returns the results in the order of the
chunks; the handle `gid` means the same message in every worker. -/

namespace PyG2P
namespace GribLib

/-- util/numeric.py 4. -/
def fillInt : Int := -999999

/-- util/generics.py 22-29 (`progress_step_and_backchar`); `tty`: the output is a terminal. -/
def progressStep (tty : Bool) (cells : Nat) : Nat := if tty then cells / 250 else cells / 250 * 10

/-- `-1.0e+10`. -/
def bound : Num := .fin (-10000000000)

/-- A target cell. -/
structure Cell where
  lat : Num
  lon : Num
  deriving DecidableEq

/-- lines 27, 66, 263: `(target_lons > -1.0e+10) & (target_lons != mv)`. -/
def valid (mv : Num) (c : Cell) : Bool := Num.ltb bound c.lon && Num.neb c.lon mv

/-- lines 28-29, 67-68, 264-265: row and column of cell `i`, or the fill value. -/
def cellPos (mv : Num) (cols i : Nat) (c : Cell) : Int × Int :=
  if valid mv c then ((i / cols : Nat), (i % cols : Nat)) else (fillInt, fillInt)

/-- line 44: `not (lon <= -1.0e+10 or lon == mv)`. -/
def looksNearest (mv : Num) (c : Cell) : Bool :=
  !((Num.ltb c.lon bound || decide (c.lon = bound)) || !Num.neb c.lon mv)

/-- line 90: `not (lon < -1.0e+10 or lon == mv)`. -/
def looksInvdist (mv : Num) (c : Cell) : Bool := !(Num.ltb c.lon bound || !Num.neb c.lon mv)

/-! ## Nearest neighbour -/

/-- lines 44-52: what an iteration leaves in `xs[i]`, `ys[i]`, `idxs[i]`. -/
def nearestCell (find : Num → Num → Option Nat) (mv : Num) (x y : Int) (c : Cell) : Int × Int × Int :=
  if looksNearest mv c then
    match find c.lat c.lon with
    | none => (fillInt, fillInt, fillInt)
    | some k => (x, y, (k : Int))
  else (x, y, fillInt)

/-- lines 40-53: the loop from cell `i` on. -/
def nearestLoop (step : Nat) (find : Num → Num → Option Nat) (mv : Num) (cols : Nat) :
    Nat → List Cell → Py (List (Int × Int × Int))
  | _, [] => .ok []
  | i, c :: cs =>
    if step = 0 then .error .zeroDivision
    else do
      let rest ← nearestLoop step find mv cols (i + 1) cs
      .ok (nearestCell find mv (cellPos mv cols i c).1 (cellPos mv cols i c).2 c :: rest)

/-- `a[a != int_fill_value]`. -/
def notFill (a : List Int) : List Int := a.filter fun x => x ≠ fillInt

/-- A nearest neighbour table: target rows, target columns, source indexes. -/
abbrev NearestTbl := List Int × List Int × List Int

/-- lines 58-60, 180-187: fill values are dropped from each array. -/
def nearestTbl (rs : List (Int × Int × Int)) : NearestTbl :=
  (notFill (rs.map (·.1)), notFill (rs.map (·.2.1)), notFill (rs.map (·.2.2)))

/-- lines 24-60 (`grib_nearest`). -/
def gribNearest (tty : Bool) (find : Num → Num → Option Nat) (mv : Num) (cols : Nat) (cells : List Cell) :
    Py NearestTbl := do
  let rs ← nearestLoop (progressStep tty cells.length) find mv cols 0 cells
  .ok (nearestTbl rs)

/-! ## Inverse distance -/

/-- lines 124-140 (`_compute_coeffs_and_idxs`): inverse distances and indexes of the four points. -/
def coeffsIdxs (p : Fin 4 → Nat × ℚ) : (Fin 4 → ℚ) × (Fin 4 → Nat) :=
  match (List.finRange 4).find? fun k => decide ((p k).2 = 0) with
  | some e => (fun k => if k = 0 then 1 else 0, fun k => if k = 0 then (p e).1 else 0)
  | none => (fun k => 1 / (p k).2, fun k => (p k).1)

/-- What an iteration leaves: row, column, four indexes, four inverse distances (NaN: not set). -/
structure InvCell where
  x : Int
  y : Int
  idx : Fin 4 → Int
  inv : Fin 4 → Num

/-- lines 90-101. -/
def invdistCell (find : Num → Num → Option (Fin 4 → Nat × ℚ)) (mv : Num) (x y : Int) (c : Cell) : InvCell :=
  if looksInvdist mv c then
    match find c.lat c.lon with
    | none => ⟨fillInt, fillInt, fun _ => fillInt, fun _ => .nan⟩
    | some p => ⟨x, y, fun k => ((coeffsIdxs p).2 k : Int), fun k => .fin ((coeffsIdxs p).1 k)⟩
  else ⟨x, y, fun _ => fillInt, fun _ => .nan⟩

/-- lines 86-102: the loop from cell `i` on. -/
def invdistLoop (step : Nat) (find : Num → Num → Option (Fin 4 → Nat × ℚ)) (mv : Num) (cols : Nat) :
    Nat → List Cell → Py (List InvCell)
  | _, [] => .ok []
  | i, c :: cs =>
    if step = 0 then .error .zeroDivision
    else do
      let rest ← invdistLoop step find mv cols (i + 1) cs
      .ok (invdistCell find mv (cellPos mv cols i c).1 (cellPos mv cols i c).2 c :: rest)

/-- An inverse distance table: rows, columns, four arrays of indexes and four of coefficients. -/
structure InvTbl where
  xs : List Int
  ys : List Int
  idx : Fin 4 → List Int
  coeff : Fin 4 → List Num

/-- `a[~np.isnan(a)]`. -/
def notNan (a : List Num) : List Num := a.filter fun x => !x.isNan

/-- lines 106-121 and 213-252: NaN and fill values are dropped from each array, then the coefficients are
computed. -/
def invTbl (rs : List InvCell) : InvTbl :=
  let invs : Fin 4 → List Num := fun k => notNan (rs.map fun r => r.inv k)
  let sums := List.zipWith (· + ·) (List.zipWith (· + ·) (List.zipWith (· + ·) (invs 0) (invs 1)) (invs 2)) (invs 3)
  { xs := notFill (rs.map (·.x))
    ys := notFill (rs.map (·.y))
    idx := fun k => notFill (rs.map fun r => r.idx k)
    coeff := fun k => List.zipWith (· / ·) (invs k) sums }

/-- lines 63-121 (`grib_invdist`). -/
def gribInvdist (tty : Bool) (find : Num → Num → Option (Fin 4 → Nat × ℚ)) (mv : Num) (cols : Nat)
    (cells : List Cell) : Py InvTbl := do
  let rs ← invdistLoop (progressStep tty cells.length) find mv cols 0 cells
  .ok (invTbl rs)

/-! ## Parallel versions -/

/-- Consecutive pieces of the given lengths. -/
def pieces {α : Type} : List Nat → List α → List (List α)
  | [], _ => []
  | n :: ns, l => l.take n :: pieces ns (l.drop n)

/-- `np.array_split(l, k)`: the first `len % k` pieces have one element more. -/
def arraySplit {α : Type} (l : List α) (k : Nat) : Py (List (List α)) :=
  if k = 0 then .error .valueError
  else .ok (pieces ((List.range k).map fun j => l.length / k + if j < l.length % k then 1 else 0) l)

/-- `np.apply_along_axis(step, 0, chunk)`: a chunk without columns raises `ValueError`. -/
def applyChunk {α β : Type} (step : α → β) (chunk : List α) : Py (List β) :=
  if chunk = [] then .error .valueError else .ok (chunk.map step)

/-- lines 259-271 (`init_parallel`) and `compute`: the results of all chunks. -/
def runChunks {α β : Type} (step : α → β) (stack : List α) (nchunks : Nat) : Py (List (List β)) := do
  let chunks ← arraySplit stack nchunks
  chunks.mapM (applyChunk step)

/-- lines 261-266: the cells with their row and column. -/
def stack (mv : Num) (cols : Nat) (cells : List Cell) : List (Cell × Int × Int) :=
  (cells.zipIdx).map fun p => (p.1, cellPos mv cols p.2 p.1)

/-- lines 167-187 (`grib_nearest_parallel`, `concatenate_nearest_result`), 151-164 (`nearest_parallel_step`);
`rows`: the number of rows of the target grid. -/
def gribNearestParallel (find : Num → Num → Option Nat) (mv : Num) (rows cols : Nat) (cells : List Cell) :
    Py NearestTbl := do
  let rs ← runChunks (fun e : Cell × Int × Int => nearestCell find mv e.2.1 e.2.2 e.1) (stack mv cols cells) rows
  .ok (nearestTbl rs.flatten)

/-- lines 197-256 (`invdist_parallel_step`, `grib_invdist_parallel`, `concatenate_invdist_result`). Rows, columns
and indexes pass through floats; they are exact. -/
def gribInvdistParallel (find : Num → Num → Option (Fin 4 → Nat × ℚ)) (mv : Num) (rows cols : Nat)
    (cells : List Cell) : Py InvTbl := do
  let rs ← runChunks (fun e : Cell × Int × Int => invdistCell find mv e.2.1 e.2.2 e.1) (stack mv cols cells) rows
  .ok (invTbl rs.flatten)

end GribLib
end PyG2P
