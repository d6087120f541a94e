import Verif.Py
import Mathlib.Data.Rat.Floor

/-! # Python string operations used by the model

Text that is taken apart is a list of characters (`str`). -/

namespace PyG2P

/-- A Python `str` as the list of its characters. -/
abbrev Str := List Char

namespace Str

/-- `s.replace(old, '')` for a non-empty `old`: all occurrences, left to right, non-overlapping.
`skip` counts the characters of the current occurrence still to be dropped. -/
def removeGo (old : Str) : Nat → Str → Str
  | _, [] => []
  | 0, c :: s =>
    if old.isPrefixOf (c :: s) then removeGo old (old.length - 1) s else c :: removeGo old 0 s
  | k + 1, _ :: s => removeGo old k s

/-- `s.replace(old, '')`. -/
def removeAll (old s : Str) : Str := removeGo old 0 s

end Str
end PyG2P

namespace PyG2P
namespace Str

/-- the digit `d < 10`. -/
def digit (d : Nat) : Char := Char.ofNat (48 + d % 10)

/-- `str(n)` for a natural number. -/
def ofNat (n : Nat) : Str :=
  if h : n < 10 then [digit n] else ofNat (n / 10) ++ [digit n]
termination_by n
decreasing_by omega

/-- `str(z)`. -/
def ofInt (z : Int) : Str := if z < 0 then '-' :: ofNat z.natAbs else ofNat z.natAbs

/-- `s.rstrip(c)` for one character. -/
def rstrip (c : Char) (s : Str) : Str := (s.reverse.dropWhile (· == c)).reverse

/-- `s.lstrip(c)` for one character. -/
def lstrip (c : Char) (s : Str) : Str := s.dropWhile (· == c)

/-- Round to the nearest integer, ties to even (as C's `printf` does on the exact value). -/
def roundHalfEven (x : ℚ) : Int :=
  let f := ⌊x⌋
  if x - f < 1 / 2 then f
  else if 1 / 2 < x - f then f + 1
  else if f % 2 = 0 then f else f + 1

/-- four digits of `k % 10000`. -/
def fourDigits (k : Nat) : Str := [digit (k / 1000), digit (k / 100), digit (k / 10), digit k]

/-- `'%.4f' % x`. Negative zero is not modelled (rationals have none). -/
def fmt4 (x : ℚ) : Str :=
  let k := (roundHalfEven (|x| * 10000)).toNat
  (if x < 0 then ['-'] else []) ++ ofNat (k / 10000) ++ '.' :: fourDigits k

end Str
end PyG2P
