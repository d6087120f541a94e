import Verif.Py

/-! # Masked-array helpers — src/pyg2p/util/numeric.py and the numpy calls around it -/

namespace PyG2P
namespace Arr
variable {n : Nat}

/-- src/pyg2p/util/numeric.py 30-36 (`get_masks`): OR of the masks of the masked arguments,
`None` when no argument is a `MaskedArray`. -/
def getMasks : List (Arr n) → Option (Fin n → Bool)
  | [] => none
  | a :: as =>
    match a.mask, getMasks as with
    | none, r => r
    | some m, none => some m
    | some m, some m' => some (fun i => m i || m' i)

/-- `ma.masked_where(cond, x, copy=False)` for a plain `x`; `cond = None` masks nothing
but still gives a `MaskedArray`. -/
def maskedWhere (cond : Option (Fin n → Bool)) (d : Fin n → Num) : Arr n :=
  ⟨d, some (cond.getD (fun _ => false))⟩

/-- `a * q` for a Python float `q`: masked cells keep the raw data of `a`. -/
def scale (a : Arr n) (q : Num) : Arr n :=
  ⟨fun i => if a.masked i then a.data i else a.data i * q, a.mask⟩

/-- `z += a` with `z = np.zeros(shape)`: a plain array holding the raw data. -/
def intoZeros (a : Arr n) : Arr n := ⟨fun i => 0 + a.data i, none⟩

/-- src/pyg2p/util/numeric.py 21-27 (`result_masked`): plain arrays pass through, masked cells
are filled. -/
def resultMasked (a : Arr n) (fill : Num) : Arr n :=
  match a.mask with
  | none => a
  | some m => ⟨fun i => if m i then fill else a.data i, none⟩

end Arr
end PyG2P
