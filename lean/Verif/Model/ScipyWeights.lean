import Verif.Model.ScipyNear
import Mathlib.Analysis.SpecialFunctions.Exp
import Mathlib.Analysis.Real.Sqrt
import Mathlib.Algebra.BigOperators.Fin

/-! # Angular distance weights (ADW, CDD) — src/pyg2p/main/interpolation/scipy_interpolation_lib.py

Real numbers without rounding; `none` stands for NaN. Both methods use 11 neighbours (interpolation/__init__.py 23),
nearest first. A row of the result depends on one target cell, except for the reference radius. -/

namespace PyG2P
namespace ScipyLib
noncomputable section

/-! ## Distance weights -/

/-- lines 345-361: the radius of one cell. -/
def adwRadius (rref : ℝ) (d : Fin 11 → ℝ) : ℝ :=
  if rref < d 3 then d 4 else if rref < d 9 then rref else d 10

/-- lines 368-375: the weight `s` of a neighbour at distance `x` (zero by default). For `x = 0` the program has `inf`;
such a cell is overwritten later (1046-1053). -/
def adwS (r x : ℝ) : ℝ :=
  if x ≤ r / 3 then 1 / x else if x ≤ r then 27 / (4 * r) * (x / r - 1) ^ 2 else 0

/-- lines 345-348, 584: `np.mean(distances[:, 6])`. -/
def meanSeventh (rows : List (Fin 11 → ℝ)) : ℝ := (rows.map fun d => d 6).sum / rows.length

/-- lines 382-408 (`cdd_hofstra_compute_weights_from_cutoff_distances`), one cell, positive CDD. -/
def hofstraS (cdd : ℝ) (d : Fin 11 → ℝ) (i : Fin 11) : ℝ :=
  if cdd < d 2 then 0 else if d i ≤ cdd then Real.exp (-d i * 4 / cdd) else 0

/-- lines 423-438: the radius of the mixed method; `q + 1` is `min_num_of_station` (1 to 10), `nnear = 11`. -/
def mixRadius (q : Fin 10) (cdd : ℝ) (d : Fin 11 → ℝ) : ℝ :=
  if cdd < d q.castSucc then d q.succ else if cdd < d 9 then cdd else d 10

/-- lines 443-449: the weight of a neighbour at distance `x`. -/
def mixS (m ratio r x : ℝ) : ℝ :=
  if x ≤ r * ratio then Real.exp (-x * m / r)
  else if x ≤ r then (1 / (ratio - 1) ^ 2 * Real.exp (-m * ratio)) * (x / r - 1) ^ 2 else 0

/-- lines 469-470 (`cdd_newetal_compute_weights_from_cutoff_distances`): `c` is the CDD at the station. -/
def newS (c x : ℝ) : ℝ := if x ≤ c then Real.exp (-x * 4 / c) else 0

/-! ## Directional factors -/

/-- Sum of an array: NaN as soon as one element is. -/
def osum : List (Option ℝ) → Option ℝ
  | [] => some 0
  | none :: _ => none
  | some x :: l => (osum l).map (x + ·)

/-- `numerator / denominator` for the pairs `(cos_theta, sj)` (lines 960-962, 508-511). A zero denominator gives NaN
(all `sj` are zero then, as they are not negative). -/
def factor (l : List (Option ℝ × ℝ)) : Option ℝ :=
  match osum (l.map fun p => p.1.map fun c => (1 - c) * p.2) with
  | none => none
  | some num => if (l.map (·.2)).sum = 0 then none else some (num / (l.map (·.2)).sum)

/-- lines 944-955, 483-491: `cos_theta` of neighbours at `(x, y)` and `(x', y')` from the cell; a zero divisor gives
NaN (the numerator is zero then). -/
def cosTheta (x y x' y' : ℝ) : Option ℝ :=
  if Real.sqrt (x ^ 2 + y ^ 2) * Real.sqrt (x' ^ 2 + y' ^ 2) = 0 then none
  else some ((x * x' + y * y') / (Real.sqrt (x ^ 2 + y ^ 2) * Real.sqrt (x' ^ 2 + y' ^ 2)))

/-- The neighbours of the target cells: `dx a j`, `dy a j` the difference in latitude and longitude between cell `a`
and its neighbour `j` (lines 944-945, 483-484), `s a j` the distance weight. -/
structure Nb where
  dx : Nat → Nat → ℝ
  dy : Nat → Nat → ℝ
  s : Nat → Nat → ℝ

/-- lines 944-945, 481-484: the neighbours of cells at `tlat a`, `tlon a`; `idx a j` is source point `j` of cell `a`. -/
def Nb.of (tlat tlon lat lon : Nat → ℝ) (idx : Nat → Nat → Nat) (s : Nat → Nat → ℝ) : Nb :=
  ⟨fun a j => tlat a - lat (idx a j), fun a j => tlon a - lon (idx a j), s⟩

/-- `cos_theta[a, i, j]`. -/
def Nb.cos (b : Nb) (a i j : Nat) : Option ℝ := cosTheta (b.dx a i) (b.dy a i) (b.dx a j) (b.dy a j)

/-- lines 943-962: iteration `i` of the loop, for cell `a` and `k` neighbours. -/
def dirLoop (k : Nat) (b : Nb) (a i : Nat) : Option ℝ :=
  factor ((List.range i ++ List.range' (i + 1) (k - (i + 1))).map fun j => (b.cos a i j, b.s a j))

/-- Element at position `q` of the C-ordered copy of an array of shape `(·, k, k)`. -/
def flat3 {α : Type} (k : Nat) (arr : Nat → Nat → Nat → α) (q : Nat) : α := arr (q / (k * k)) (q % (k * k) / k) (q % k)

/-- lines 498-500: `as_strided(x.ravel()[1:], shape=(n, k-1, k), strides=(s0, s1+s2, s2)).copy().reshape(n, k, -1)`
for `x` of shape `(n, k, k)`: element `[a, i, j]`. -/
def dropDiag {α : Type} (k : Nat) (flat : Nat → α) (a i j : Nat) : α :=
  let p := a * (k * (k - 1)) + i * (k - 1) + j
  let a' := p / ((k - 1) * k)
  let b := p % ((k - 1) * k) / k
  let c := p % k
  flat (1 + (a' * (k * k) + b * (k + 1) + c))

/-- line 501: `s.T.repeat(k).reshape(k, -1, k).transpose(1, 2, 0)[a, i, j]` for `n` cells. -/
def repeated (n k : Nat) (s : Nat → Nat → ℝ) (a i j : Nat) : ℝ :=
  let sT : Nat → ℝ := fun q => s (q % n) (q / n)
  sT (((j * n + a) * k + i) / k)

/-- lines 475-513 (`adw_and_cdd_compute_weights_directional_in_broadcasting`) for `n` cells and `k` neighbours. -/
def dirBroadcast (n k : Nat) (b : Nb) (a i : Nat) : Option ℝ :=
  let cos := dropDiag k (flat3 k b.cos)
  let sj := dropDiag k (flat3 k (repeated n k b.s))
  factor ((List.range (k - 1)).map fun j => (cos a i j, sj a i j))

/-- lines 942-983: NaN factors become one. -/
def directional (bcast : Bool) (n k : Nat) (b : Nb) (a i : Nat) : ℝ :=
  (if bcast then dirBroadcast n k b a i else dirLoop k b a i).getD 1

/-! ## Final weights of a cell -/

/-- lines 1021-1023: weights divided by their sum. -/
def normalise {k : Nat} (w : Fin k → ℝ) (i : Fin k) : Option ℝ :=
  if ∑ j, w j = 0 then none else some (w i / ∑ j, w j)

/-- lines 378, 999, 1021-1053 (Shepard): `d` distances, `f` directional factors of a cell. -/
def adwWeights (rref : ℝ) (d f : Fin 11 → ℝ) (i : Fin 11) : Option ℝ :=
  if d 0 ≤ 1 / 10000000000 then (if i = 0 then some 1 else some 0)
  else normalise (fun j => adwS (adwRadius rref d) (d j) ^ 2 * (1 + f j)) i

/-- lines 988-999, 1021-1023 (CDD): `s` distance weights, `f` directional factors, which are divided by their sum
first; a zero sum gives NaN everywhere. -/
def cddWeights (s f : Fin 11 → ℝ) (i : Fin 11) : Option ℝ :=
  if ∑ j, f j = 0 then none else normalise (fun j => s j * (1 + f j / ∑ l, f l)) i

/-! ## A block of cells -/

/-- Row `a` of an array built from the cells of a block (0 outside). -/
def atCell {τ : Type} (cells : List τ) (f : τ → ℝ) (a : Nat) : ℝ := ((cells[a]?).map f).getD 0

/-- lines 615-663, 774-830, 942-1053 (`interpolate_split`, mode `adw`): `query t` gives the distances and indexes of the
11 nearest stations of target `t`, `lat`, `lon` the stations, `ref` the global reference radius (only with splits,
574-586). -/
def adwPart {τ : Type} (ref : Option ℝ) (bcast : Bool) (tlat tlon : τ → ℝ) (lat lon : Nat → ℝ)
    (query : τ → (Fin 11 → ℝ) × (Nat → Nat)) (grid : List (List τ)) : Py (Part (Option ℝ)) :=
  let cells := grid.flatten
  let rref := ref.getD (meanSeventh (cells.map fun t => (query t).1))
  let b : Nb := ⟨fun a j => atCell cells (fun t => tlat t - lat ((query t).2 j)) a,
    fun a j => atCell cells (fun t => tlon t - lon ((query t).2 j)) a,
    fun a j => atCell cells (fun t => if h : j < 11 then adwS (adwRadius rref (query t).1) ((query t).1 ⟨j, h⟩) else 0) a⟩
  .ok (.table (cells.mapIdx fun a t => List.ofFn fun i : Fin 11 =>
    (adwWeights rref (query t).1 (fun j => directional bcast cells.length 11 b a j) i, (query t).2 i)))

/-- lines 572-612 (`interpolate`, mode `adw`): with splits the reference radius is the mean over the whole target. -/
def adwInterpolate {τ : Type} (splits : Option Nat) (bcast : Bool) (tlat tlon : τ → ℝ) (lat lon : Nat → ℝ)
    (query : τ → (Fin 11 → ℝ) × (Nat → Nat)) (grid : List (List τ)) : Py (Part (Option ℝ)) :=
  interpolate 11 splits (adwPart (splits.map fun _ => meanSeventh (grid.flatten.map fun t => (query t).1)) bcast tlat tlon
    lat lon query) grid

end
end ScipyLib
end PyG2P
