import Verif.Model.Text
import Verif.Model.Step
import Verif.Model.Numeric

/-! # Converter — src/pyg2p/main/manipulation/conversion.py -/

namespace PyG2P

/-- numexpr as a library: the meaning of an expression text in the variable `x`, cell by cell;
`none` when the text is rejected (modelled as `ValueError`; numexpr raises several kinds). -/
abbrev NumExpr := Str → Option (Num → Num)

/-- The attributes of a `Converter` (conversion.py 10-22). `evalText` is the text put in the
middle of `'where(x!=mv, {}, mv)'`; `none` when the attribute `_numexpr_eval` was never set. -/
structure Converter where
  identity : Bool
  evalText : Option Str
  mv : Num
  cutOff : Bool

namespace Converter
variable {n : Nat}

/-- conversion.py 7-22 (`__init__`); `func = none` or `''` sets neither attribute. -/
def init (func : Option Str) (cutOff : Bool) : Converter :=
  match func with
  | none => ⟨false, none, .fin (-1), cutOff⟩
  | some [] => ⟨false, none, .fin (-1), cutOff⟩
  | some s =>
    if s = "x=x".toList then ⟨true, none, .fin (-1), cutOff⟩
    else ⟨false, some (Str.removeAll "x=".toList s), .fin (-1), cutOff⟩

/-- conversion.py 26-27 (`set_missing_value`). -/
def setMissingValue (c : Converter) (mv : Num) : Converter := { c with mv := mv }

/-- conversion.py 33-42 (`convert`). Assumed: numexpr evaluates `where(x!=mv, t, mv)` cell by cell
from the meaning of `t` (the text has no unbalanced parenthesis or top-level comma). -/
def convert (ne : NumExpr) (c : Converter) (x : Arr n) : Py (Arr n) :=
  if c.identity then .ok x
  else match c.evalText with
    | none => .error .attributeError
    | some t => match ne t with
      | none => .error .valueError
      | some f =>
        let res : Fin n → Num := fun i => if (x.data i).neb c.mv then f (x.data i) else c.mv
        .ok (match x.mask with
          | none => Arr.plain res
          | some m => Arr.maskedWhere (some m) res)

/-- conversion.py 48, 51: `where(values<0, 0, values)` — numexpr gives a plain array. -/
def cutOffField (x : Arr n) : Arr n :=
  Arr.plain fun i => if (x.data i).ltb 0 then 0 else x.data i

/-- conversion.py 44-52 (`cut_off_negative`) on a dictionary of maps. -/
def cutOffNegative {κ : Type} (xs : Dict κ (Arr n)) : Dict κ (Arr n) :=
  xs.map fun p => (p.1, cutOffField p.2)

end Converter
end PyG2P
