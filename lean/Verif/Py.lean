import Mathlib.Algebra.Order.Field.Rat
import Mathlib.Data.List.Sort
import Mathlib.Data.Fintype.Basic
import Mathlib.Tactic.Linarith

/-!
# The Python/numpy runtime used by the model

Exceptions as values, dictionaries in insertion order, `range`, indexing, `bisect`,
`sorted`, and numpy (masked) arrays over exact numbers with one non-finite value.
-/

namespace PyG2P

/-- A Python exception. `app c` is `ApplicationException` with `code = c`
(src/pyg2p/exceptions.py 27-82); `appNoCode` is one built with `code = None` (context.py 117). -/
inductive PyErr where
  | indexError | keyError | attributeError | typeError | zeroDivision | valueError
  | unboundLocal | fileNotFound | nameError | appNoCode
  | app (code : Nat)
  deriving DecidableEq, Repr

/-- A Python computation that may raise. -/
abbrev Py := Except PyErr

/-- Decidable equality of results (written out so that it computes without transporting along proofs). -/
instance {ε α : Type} [DecidableEq ε] [DecidableEq α] : DecidableEq (Except ε α)
  | .ok a, .ok b => decidable_of_iff (a = b) ⟨fun h => h ▸ rfl, fun h => by injection h⟩
  | .error a, .error b => decidable_of_iff (a = b) ⟨fun h => h ▸ rfl, fun h => by injection h⟩
  | .ok _, .error _ => isFalse (by intro h; cases h)
  | .error _, .ok _ => isFalse (by intro h; cases h)

/-! ## Numbers -/

/-- A float without rounding: a rational number, or a non-finite value
(NaN and the infinities are not told apart). -/
inductive Num where
  | fin (q : ℚ)
  | nan
  deriving DecidableEq

namespace Num

instance : Coe ℚ Num := ⟨Num.fin⟩
instance (n : Nat) : OfNat Num n := ⟨.fin n⟩
instance : Zero Num := ⟨.fin 0⟩
instance : Inhabited Num := ⟨.fin 0⟩

protected def add : Num → Num → Num
  | fin a, fin b => fin (a + b)
  | _, _ => nan
protected def sub : Num → Num → Num
  | fin a, fin b => fin (a - b)
  | _, _ => nan
protected def mul : Num → Num → Num
  | fin a, fin b => fin (a * b)
  | _, _ => nan
/-- numpy/numexpr division: no exception, a zero divisor gives a non-finite value. -/
protected def div : Num → Num → Num
  | fin a, fin b => if b = 0 then nan else fin (a / b)
  | _, _ => nan

instance : Add Num := ⟨Num.add⟩
instance : Sub Num := ⟨Num.sub⟩
instance : Mul Num := ⟨Num.mul⟩
instance : Div Num := ⟨Num.div⟩

@[simp] theorem fin_add (a b : ℚ) : (fin a + fin b : Num) = fin (a + b) := rfl
@[simp] theorem fin_sub (a b : ℚ) : (fin a - fin b : Num) = fin (a - b) := rfl
@[simp] theorem fin_mul (a b : ℚ) : (fin a * fin b : Num) = fin (a * b) := rfl
theorem fin_div (a b : ℚ) : (fin a / fin b : Num) = if b = 0 then nan else fin (a / b) := rfl
theorem fin_div_of_ne (a : ℚ) {b : ℚ} (h : b ≠ 0) : (fin a / fin b : Num) = fin (a / b) := by
  rw [fin_div, if_neg h]
@[simp] theorem nan_add (a : Num) : (nan + a : Num) = nan := rfl
@[simp] theorem add_nan (a : Num) : (a + nan : Num) = nan := by cases a <;> rfl
@[simp] theorem nan_sub (a : Num) : (nan - a : Num) = nan := rfl
@[simp] theorem sub_nan (a : Num) : (a - nan : Num) = nan := by cases a <;> rfl
@[simp] theorem nan_mul (a : Num) : (nan * a : Num) = nan := rfl
@[simp] theorem mul_nan (a : Num) : (a * nan : Num) = nan := by cases a <;> rfl
@[simp] theorem nan_div (a : Num) : (nan / a : Num) = nan := rfl
@[simp] theorem div_nan (a : Num) : (a / nan : Num) = nan := by cases a <;> rfl
theorem zero_def : (0 : Num) = fin 0 := rfl
theorem ofNat_def (n : Nat) : (OfNat.ofNat n : Num) = fin (n : ℚ) := rfl
@[simp] theorem fin_inj {a b : ℚ} : (fin a : Num) = fin b ↔ a = b := by
  constructor
  · intro h; injection h
  · rintro rfl; rfl

/-- Python `int` used in a float expression. -/
def ofInt (z : ℤ) : Num := fin (z : ℚ)

@[simp] theorem ofInt_def (z : ℤ) : ofInt z = fin (z : ℚ) := rfl

/-- `x < y` as a numpy comparison (false on NaN). -/
def ltb : Num → Num → Bool
  | fin a, fin b => decide (a < b)
  | _, _ => false

/-- `x != y` as a numpy comparison (true on NaN, even `nan != nan`). -/
def neb : Num → Num → Bool
  | fin a, fin b => decide (a ≠ b)
  | _, _ => true

/-- `np.isnan`. -/
def isNan : Num → Bool
  | nan => true
  | _ => false

theorem add_comm' (a b : Num) : a + b = b + a := by
  cases a <;> cases b <;> simp [add_comm]
theorem add_assoc' (a b c : Num) : a + b + c = a + (b + c) := by
  cases a <;> cases b <;> cases c <;> simp [add_assoc]

end Num

/-! ## Dictionaries -/

/-- A Python `dict`/`OrderedDict`: key/value pairs in insertion order. -/
abbrev Dict (κ α : Type) := List (κ × α)

namespace Dict
variable {κ α : Type} [DecidableEq κ]

/-- `d.get(k)`. -/
def get? : Dict κ α → κ → Option α
  | [], _ => none
  | (k', v) :: d, k => if k' = k then some v else get? d k

/-- `d[k] = v`: an existing key keeps its position, a new key goes last. -/
def set : Dict κ α → κ → α → Dict κ α
  | [], k, v => [(k, v)]
  | (k', v') :: d, k, v => if k' = k then (k', v) :: d else (k', v') :: set d k v

/-- `d[k]`. -/
def getE (d : Dict κ α) (k : κ) : Py α :=
  match get? d k with
  | some v => .ok v
  | none => .error .keyError

/-- `list(d.keys())`. -/
def keys (d : Dict κ α) : List κ := d.map (·.1)

/-- `dict(pairs)`: later pairs win. -/
def ofPairs (l : List (κ × α)) : Dict κ α := l.foldl (fun d p => set d p.1 p.2) []

/-- `d.update(e)`. -/
def update (d e : Dict κ α) : Dict κ α := e.foldl (fun d p => set d p.1 p.2) d

/-- `del d[k]` (first occurrence; keys are unique). -/
def erase : Dict κ α → κ → Dict κ α
  | [], _ => []
  | (k', v') :: d, k => if k' = k then d else (k', v') :: erase d k

end Dict

/-! ## Lists, ranges, bisect -/

/-- `l[i]` with Python's negative indices. -/
def pyGet {α : Type} (l : List α) (i : Int) : Py α :=
  let j := if i < 0 then i + l.length else i
  if j < 0 then .error .indexError
  else match l[j.toNat]? with
    | some a => .ok a
    | none => .error .indexError

/-- `range(a, b, s)`; `s = 0` raises `ValueError`. -/
def pyRange (a b s : Int) : Py (List Int) :=
  if s = 0 then .error .valueError
  else
    let cnt : Int := if 0 < s then (b - a + s - 1) / s else (a - b - s - 1) / (-s)
    .ok ((List.range cnt.toNat).map (fun (i : Nat) => a + (i : Int) * s))

/-- The loop of `bisect.bisect_left` (`lo`, `hi`, at most `fuel` rounds). -/
def bisectLeftGo (a : List Int) (x : Int) : Nat → Nat → Nat → Nat
  | 0, lo, _ => lo
  | fuel + 1, lo, hi =>
    if lo < hi then
      let mid := (lo + hi) / 2
      if a.getD mid 0 < x then bisectLeftGo a x fuel (mid + 1) hi
      else bisectLeftGo a x fuel lo mid
    else lo

/-- `bisect.bisect_left(a, x)`; `len(a)` rounds suffice as `hi - lo` shrinks each round. -/
def bisectLeft (a : List Int) (x : Int) : Nat := bisectLeftGo a x a.length 0 a.length

/-- The loop of `bisect.bisect_right`. -/
def bisectRightGo (a : List Int) (x : Int) : Nat → Nat → Nat → Nat
  | 0, lo, _ => lo
  | fuel + 1, lo, hi =>
    if lo < hi then
      let mid := (lo + hi) / 2
      if x < a.getD mid 0 then bisectRightGo a x fuel lo mid
      else bisectRightGo a x fuel (mid + 1) hi
    else lo

/-- `bisect.bisect_right(a, x)`. -/
def bisectRight (a : List Int) (x : Int) : Nat := bisectRightGo a x a.length 0 a.length

/-- `sorted(l, key=f)` for an integer key: stable. -/
def sortedBy {α : Type} (f : α → Int) (l : List α) : List α :=
  l.insertionSort (fun a b => f a ≤ f b)

/-! ## Arrays -/

/-- A numpy array of `n` cells (shape flattened). `mask = none`: plain `ndarray`;
`mask = some m`: `MaskedArray` (`nomask` is the all-false mask). -/
structure Arr (n : Nat) where
  data : Fin n → Num
  mask : Option (Fin n → Bool)

namespace Arr
variable {n : Nat}

/-- `np.zeros(shape)`. -/
def zeros : Arr n := ⟨fun _ => 0, none⟩

/-- a plain array. -/
def plain (d : Fin n → Num) : Arr n := ⟨d, none⟩

/-- is the cell masked? -/
def masked (a : Arr n) (i : Fin n) : Bool :=
  match a.mask with
  | none => false
  | some m => m i

/-- `isinstance(a, MaskedArray)`. -/
def isMasked (a : Arr n) : Bool := a.mask.isSome

end Arr

instance {n : Nat} : DecidableEq (Arr n) := fun a b =>
  decidable_of_iff (a.data = b.data ∧ a.mask = b.mask) (by
    constructor
    · rintro ⟨h1, h2⟩; cases a; cases b; simp_all
    · rintro rfl; exact ⟨rfl, rfl⟩)

instance {n : Nat} : Inhabited (Arr n) := ⟨Arr.zeros⟩

end PyG2P
