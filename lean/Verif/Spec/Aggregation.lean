import Verif.Model.Step

/-!
# What a user understands by "the field at step t"

A small specification of the input of an aggregation, independent of the aggregation code:
the messages are pairs (step key, field); only their end steps matter.
-/

namespace PyG2P.Spec
open PyG2P
variable {n : Nat}

/-- The messages handed to an aggregation. -/
abbrev Messages (n : Nat) := List (Step × Arr n)

/-- The field valid at forecast step `t`: the last message ending at `t`. -/
def fieldAt (ms : Messages n) (t : Int) : Option (Arr n) :=
  ((ms.filter (fun p => p.1.endStep = t)).getLast?).map (·.2)

/-- Some message ends at `t`. -/
def Avail (ms : Messages n) (t : Int) : Prop := ∃ p ∈ ms, p.1.endStep = t

instance (ms : Messages n) (t : Int) : Decidable (Avail ms t) :=
  inferInstanceAs (Decidable (∃ p ∈ ms, p.1.endStep = t))

/-- `u` is the first available step not before `t`. -/
def IsNext (ms : Messages n) (t u : Int) : Prop :=
  Avail ms u ∧ t ≤ u ∧ ∀ w, Avail ms w → t ≤ w → u ≤ w

/-- `u` is the last available step not after `t`. -/
def IsPrev (ms : Messages n) (t u : Int) : Prop :=
  Avail ms u ∧ u ≤ t ∧ ∀ w, Avail ms w → w ≤ t → w ≤ u

/-- `t` is one of `start, start+step, start+2*step, ... ≤ end`. -/
def InRange (start end_ step t : Int) : Prop := ∃ k : Nat, t = start + k * step ∧ t ≤ end_

/-- Linear interpolation in time between `a` at `o` and `b` at `p`, evaluated at `t`. -/
def linear (a b : Num) (o p t : Int) : Num :=
  a + (b - a) * (Num.ofInt (t - o) / Num.ofInt (p - o))

/-- The rational number in a cell, `0` when non-finite (only used where finiteness is assumed). -/
def toRat : Num → ℚ
  | .fin q => q
  | .nan => 0

end PyG2P.Spec

namespace PyG2P.Spec
open PyG2P

/-- The end of the first accumulation interval: a start of 0 means "from 0 to the first step". -/
def firstEnd (start step : Int) : Int := if start = 0 then step else start

/-- The key of the output map of the interval `(t - step, t]` for data read at resolution `res`
and level `lvl`. -/
def intervalKey (step res lvl t : Int) : Step := ⟨t - step, t, res, step, lvl⟩

/-- The end of the last interval of `first, first+step, ... ≤ end` (only used if `first ≤ end`). -/
def lastEnd (first end_ step : Int) : Int := first + (end_ - first) / step * step

/-- Value of cell `i` at the start `s` of the first interval: zero when step 0 is absent or forced
to zero, else the value of the message at `s`. -/
def BaseValue {n : Nat} (ms : Messages n) (forceZero : Bool) (s : Int) (i : Fin n) (q : ℚ) : Prop :=
  if s = 0 ∧ (forceZero = true ∨ ¬ Avail ms 0) then q = 0
  else ∃ a, fieldAt ms s = some a ∧ a.data i = .fin q

/-- Every message has a finite value in cell `i`. -/
def FiniteAt {n : Nat} (ms : Messages n) (i : Fin n) : Prop := ∀ p ∈ ms, ∃ q : ℚ, p.2.data i = .fin q

end PyG2P.Spec

namespace PyG2P.Spec
open PyG2P
variable {n : Nat}

/-- `v` is the field valid at hour `h`: the message at `h`, else the next available one. -/
def ValidAt (ms : Messages n) (h : Int) (v : Arr n) : Prop := ∃ u, IsNext ms h u ∧ fieldAt ms u = some v

/-- The starts `s` of the averaging intervals `(s, s+step]`: from `start - step` (a start of 0 means
from 0) as long as the interval ends by `end`. -/
def AvgStart (start end_ step s : Int) : Prop :=
  ∃ k : Nat, s = firstEnd start step - step + k * step ∧ s + step ≤ end_

/-- Key of the averaging interval `(s, s+step]`. -/
def avgKey (step res lvl s : Int) : Step := ⟨s, s + step, res, step, lvl⟩

/-- Key of an instantaneous map. -/
def instKey (step res lvl t : Int) : Step := ⟨t, t, res, step, lvl⟩

end PyG2P.Spec
