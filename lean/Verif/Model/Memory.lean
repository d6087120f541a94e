import Verif.Model.Aggregator
import Verif.Model.Conversion

/-! # Arrays in memory — aggregator.py and conversion.py with array objects instead of array values

The other models pass arrays by value. Here an array is an object with an address; dictionaries hold addresses;
`+=` and `out=` overwrite an array in place. Memory survives an exception. Simplifications as in `Model/Aggregator`;
`ma.masked_where(cond, x, copy=False)` of a new `x` that is not used again is one new object (its mask is copied by
numpy). -/

namespace PyG2P

/-- The arrays of a process, by address. -/
abbrev Heap (n : Nat) := List (Arr n)

/-- Statements working on memory: result or exception, and the memory left behind. -/
def Mem (n : Nat) (α : Type) := Heap n → Py α × Heap n

namespace Mem
variable {n : Nat} {α β : Type}

instance : Monad (Mem n) where
  pure a := fun h => (.ok a, h)
  bind x f := fun h => match x h with
    | (.ok a, h') => f a h'
    | (.error e, h') => (.error e, h')

/-- A computation that does not touch arrays. -/
def lift (x : Py α) : Mem n α := fun h => (x, h)

/-- A new array object. -/
def new (a : Arr n) : Mem n Nat := fun h => (.ok h.length, h ++ [a])

/-- The contents of an array object (a dangling address does not occur in Python). -/
def load (p : Nat) : Mem n (Arr n) := fun h =>
  match h[p]? with
  | some a => (.ok a, h)
  | none => (.error .nameError, h)

/-- Overwrite an array object in place. -/
def store (p : Nat) (a : Arr n) : Mem n Unit := fun h => (.ok (), h.set p a)

/-- aggregator.py 79, 167, 252 (`v_ord`): a new dictionary with the same array objects. -/
def vOrd (values : Dict Step Nat) : Dict Int Nat :=
  sortedBy (·.1) (Dict.ofPairs (values.map fun p => (p.1.endStep, p.2)))

/-- aggregator.py 105-106, 128-129: the interpolated field, a new array. -/
def linInterp (pO pN : Nat) (it o nx : Int) : Mem n Nat := do
  let vO ← load pO
  let vN ← load pN
  new (Arr.maskedWhere (Arr.getMasks [vO, vN]) fun i =>
    vO.data i + (vN.data i - vO.data i) * (Num.ofInt (it - o) / Num.ofInt (nx - o)))

/-- aggregator.py 89-106. -/
def accFillCur (keys : List Int) (vo : Dict Int Nat) (it : Int) : Mem n (Dict Int Nat) :=
  if it ∈ keys then pure vo
  else do
    let iNext : Int := bisectLeft keys it
    let nextTs ← lift (pyGet keys iNext)
    let pN ← lift (Dict.getE vo nextTs)
    let iO : Int := bisectRight keys it
    let iO := if iO = iNext then iO - 1 else iO
    let origTs ← lift (pyGet keys iO)
    let pO ← lift (Dict.getE vo origTs)
    let p ← linInterp pO pN it origTs nextTs
    pure (Dict.set vo it p)

/-- aggregator.py 108-129. -/
def accFillPrev (keys : List Int) (vo : Dict Int Nat) (zero : Bool) (it prev : Int) :
    Mem n (Dict Int Nat × Bool) :=
  if 0 ≤ prev ∧ prev ∉ keys ∧ zero = false then do
    let iNext : Int := bisectLeft keys prev
    let nextTs ← lift (pyGet keys iNext)
    if prev = 0 then do
      let p ← new Arr.zeros
      pure (Dict.set vo 0 p, true)
    else do
      let pN ← lift (Dict.getE vo nextTs)
      let iO : Int := bisectRight keys prev
      let iO := if iO = iNext then iO - 1 else iO
      let origTs ← lift (pyGet keys iO)
      let pO ← lift (Dict.getE vo origTs)
      let p ← linInterp pO pN it origTs nextTs
      pure (Dict.set vo prev p, zero)
  else pure (vo, zero)

/-- aggregator.py 131-138: the object at the interval start, not a copy of it. -/
def accPrev (ag : Aggregator) (vo : Dict Int Nat) (prev : Int) : Mem n Nat :=
  if prev = 0 ∧ ag.forceZero = true then new Arr.zeros else lift (Dict.getE vo prev)

/-- aggregator.py 142-143, 258-276: `z = np.zeros(shape); z += a`, the second statement in place. -/
def zerosPlus (p : Nat) : Mem n Nat := do
  let z ← new Arr.zeros
  let a ← load p
  let zv ← load z
  store z ⟨fun i => zv.data i + a.data i, none⟩
  pure z

/-- State of the accumulation loop. -/
structure AccSt where
  vOrd : Dict Int Nat
  zero : Bool
  out : Dict Step Nat

/-- aggregator.py 88-148. -/
def accIter (ag : Aggregator) (res lvl : Int) (st : AccSt) (it : Int) : Mem n AccSt := do
  let keys := Dict.keys st.vOrd
  let vo1 ← accFillCur keys st.vOrd it
  let prev := it - ag.aggrStep
  let (vo2, zero) ← accFillPrev keys vo1 st.zero it prev
  let pPrev ← accPrev ag vo2 prev
  let pIt ← lift (Dict.getE vo2 it)
  let pCur ← zerosPlus pIt
  let key : Step := ⟨prev, it, res, ag.aggrStep, lvl⟩
  let cur ← load pCur
  let vPrev ← load pPrev
  let o ← new (Arr.maskedWhere (Arr.getMasks [cur, vPrev]) fun i =>
    (cur.data i - vPrev.data i) * Num.ofInt ag.unitTime / Num.ofInt ag.aggrStep)
  pure ⟨vo2, zero, Dict.set st.out key o⟩

/-- aggregator.py 72-153 (`_accumulation`). -/
def accumulation (ag : Aggregator) (values : Dict Step Nat) : Mem n (Dict Step Nat) := do
  let first ← lift (pyGet (Dict.keys values) 0)
  let its ← lift (pyRange ag.accStart (ag.end_ + 1) ag.aggrStep)
  let st ← its.foldlM (accIter ag first.resolution first.level) ⟨vOrd values, false, []⟩
  pure st.out

/-- aggregator.py 207, 224: `ne.evaluate('temp_sum + v_ma', out=temp_sum)`, in place; the masks are ignored. -/
def addTo (ts : Nat) (v : Arr n) : Mem n Unit := do
  let t ← load ts
  store ts ⟨fun i => t.data i + v.data i, t.mask⟩

/-- aggregator.py 210-223: the object of the dictionary used for hour `h`. -/
def avgField (vo : Dict Int Nat) (h : Int) : Mem n Nat :=
  if h ∈ Dict.keys vo then lift (Dict.getE vo h)
  else do
    let nextTs ← lift (pyGet (Dict.keys vo) (bisectLeft (Dict.keys vo) h))
    lift (Dict.getE vo nextTs)

/-- aggregator.py 209-224: one hour of the plain average; `v_ma` is the object of the dictionary. -/
def avgHour (vo : Dict Int Nat) (ts : Nat) (c : Num) (h : Int) : Mem n Num := do
  let p ← avgField vo h
  let v ← load p
  addTo ts v
  pure (c + 1)

/-- aggregator.py 195-207: one hour of the half-weight average; `v_ord[..]*dt` is a new array. -/
def halfHour (vo : Dict Int Nat) (iterFrom iterTo : Int) (dt1 dt2 : Num) (ts : Nat) (c : Num) (h : Int) : Mem n Num :=
  if h ∈ Dict.keys vo then do
    let p ← lift (Dict.getE vo h)
    let v ← load p
    let w := if h = iterFrom ∨ h = iterTo - 1 then dt2 else dt1
    let q ← new (v.scale w)
    let vma ← load q
    addTo ts vma
    pure (c + w)
  else pure c

/-- aggregator.py 175-224: fills `temp_sum` and returns `sum_counter`. -/
def avgSums (ag : Aggregator) (vo : Dict Int Nat) (ts : Nat) (it : Int) : Mem n Num := do
  let iterTo := it + ag.aggrStep + 1
  if ag.halfweights then do
    let iterFrom := it
    let hours ← lift (pyRange iterFrom iterTo 1)
    let countSteps : Int := (hours.filter (· ∈ Dict.keys vo)).length - 1
    if countSteps > 0 then
      let dt1 := Num.ofInt ag.aggrStep / Num.ofInt countSteps
      let dt2 := dt1 / 2
      hours.foldlM (halfHour vo iterFrom iterTo dt1 dt2 ts) 0
    else pure 0
  else do
    let hours ← lift (pyRange (it + 1) iterTo 1)
    hours.foldlM (avgHour vo ts) 0

/-- aggregator.py 175-232. -/
def avgIter (ag : Aggregator) (vo : Dict Int Nat) (res lvl : Int) (out : Dict Step Nat) (it : Int) :
    Mem n (Dict Step Nat) := do
  let ts ← new Arr.zeros
  let c ← avgSums ag vo ts it
  let key : Step := ⟨it, it + ag.aggrStep, res, ag.aggrStep, lvl⟩
  let t ← load ts
  let o ← new (Arr.maskedWhere none fun i => t.data i / c)
  pure (Dict.set out key o)

/-- aggregator.py 155-236 (`_average`). -/
def average (ag : Aggregator) (values : Dict Step Nat) : Mem n (Dict Step Nat) :=
  if ag.stepType = PARAM_CUM then lift (.error (.app NOT_IMPLEMENTED))
  else do
    let first ← lift (pyGet (Dict.keys values) 0)
    let its ← lift (pyRange ag.avgBounds.1 ag.avgBounds.2 ag.aggrStep)
    its.foldlM (avgIter ag (vOrd values) first.resolution first.level) []

/-- aggregator.py 259-276: `np.zeros` first, then `+=` in place. -/
def instField (vo : Dict Int Nat) (it : Int) : Mem n Nat :=
  if it ∈ Dict.keys vo then do
    let p ← lift (Dict.getE vo it)
    zerosPlus p
  else if it = 0 then new Arr.zeros
  else do
    let nextTs ← lift (pyGet (Dict.keys vo) (bisectRight (Dict.keys vo) it))
    let p ← lift (Dict.getE vo nextTs)
    zerosPlus p

/-- aggregator.py 258-277. -/
def instIter (ag : Aggregator) (vo : Dict Int Nat) (res lvl : Int) (out : Dict Step Nat) (it : Int) :
    Mem n (Dict Step Nat) := do
  let key : Step := ⟨it, it, res, ag.aggrStep, lvl⟩
  let o ← instField vo it
  pure (Dict.set out key o)

/-- aggregator.py 244-279 (`_instantaneous`). -/
def instantaneous (ag : Aggregator) (values : Dict Step Nat) : Mem n (Dict Step Nat) :=
  if ag.stepType = PARAM_CUM then lift (.error (.app NOT_IMPLEMENTED))
  else do
    let first ← lift (pyGet (Dict.keys values) 0)
    let its ← lift (pyRange ag.findStart (ag.end_ + 1) ag.aggrStep)
    its.foldlM (instIter ag (vOrd values) first.resolution first.level) []

/-- aggregator.py 62-70 (`do_manipulation`). -/
def doManipulation (ag : Aggregator) (values : Dict Step Nat) : Mem n (Dict Step Nat) :=
  if ag.aggrType = ACCUMULATION then accumulation ag values
  else if ag.aggrType = AVERAGE then average ag values
  else if ag.aggrType = INSTANTANEOUS then instantaneous ag values
  else lift (.error .keyError)

/-- conversion.py 33-42 (`convert`): the same object for the identity, else a new one. -/
def convert (ne : NumExpr) (c : Converter) (p : Nat) : Mem n Nat :=
  if c.identity then pure p
  else match c.evalText with
    | none => lift (.error .attributeError)
    | some t => match ne t with
      | none => lift (.error .valueError)
      | some f => do
        let x ← load p
        let res : Fin n → Num := fun i => if (x.data i).neb c.mv then f (x.data i) else c.mv
        new (match x.mask with
          | none => Arr.plain res
          | some m => Arr.maskedWhere (some m) res)

/-- src/pyg2p/__init__.py 199-206 (`apply_conversion`) on one dictionary. -/
def convertDict (ne : NumExpr) (c : Converter) : Dict Step Nat → Mem n (Dict Step Nat)
  | [] => pure []
  | (k, p) :: d => do
    let q ← convert ne c p
    let d' ← convertDict ne c d
    pure ((k, q) :: d')

/-- conversion.py 44-52 (`cut_off_negative`) on a dictionary: a new array for every map. -/
def cutOffNegative : Dict Step Nat → Mem n (Dict Step Nat)
  | [] => pure []
  | (k, p) :: d => do
    let x ← load p
    let q ← new (Converter.cutOffField x)
    let d' ← cutOffNegative d
    pure ((k, q) :: d')

/-- controller.py 105-133 for one resolution: conversion, aggregation, cut-off. -/
def manipulate (ne : NumExpr) (c : Converter) (ag : Aggregator) (values : Dict Step Nat) : Mem n (Dict Step Nat) := do
  let v ← convertDict ne c values
  let out ← doManipulation ag v
  if c.cutOff then cutOffNegative out else pure out

end Mem
end PyG2P
