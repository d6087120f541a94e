import Verif.Model.Step
import Verif.Model.Numeric

/-! # Aggregator — src/pyg2p/main/manipulation/aggregator.py

Simplifications: logging, `print` and `gc` are dropped; all fields of one dictionary have the
same number of cells `n` (numpy would raise on broadcasting otherwise); the mutation
`self._start = self._aggregation_step` is local to the call (the controller calls
`do_manipulation` once per aggregator). -/

namespace PyG2P

/-- aggregator.py 14-22. -/
def AVERAGE := "average"
def ACCUMULATION := "accumulation"
def INSTANTANEOUS := "instantaneous"
def PARAM_INSTANT := "instant"
def PARAM_AVG := "avg"
def PARAM_CUM := "accum"

/-- exceptions.py 13 (`NOT_IMPLEMENTED`). -/
def NOT_IMPLEMENTED : Nat := 6100

/-- The attributes of an `Aggregator` (aggregator.py 29-48). -/
structure Aggregator where
  stepType : String
  inputStep : Int
  unitTime : Int
  aggrStep : Int
  aggrType : String
  halfweights : Bool
  forceZero : Bool
  start : Int
  end_ : Int
  secondTRes : Bool
  usableStart : Int
  deriving DecidableEq

namespace Aggregator

/-- aggregator.py 27-53 (`__init__`). `sec_temp_res` is never passed by any caller: `None`. -/
def init (stepType : String) (inputStep unitTime aggrStep : Int) (aggrType : String)
    (halfweights forceZero : Bool) (start end_ : Int) : Aggregator :=
  { stepType, inputStep, unitTime, aggrStep, aggrType, halfweights, forceZero, start, end_,
    secondTRes := false
    usableStart :=
      if inputStep ≠ 0 then
        (if start - aggrStep < 0 then 0 else start - aggrStep)
      else start }

/-- aggregator.py 55-57 (`change_end_step`). -/
def changeEndStep (ag : Aggregator) (e : Int) : Aggregator := { ag with end_ := e }

/-- aggregator.py 59-60 (`get_real_start_end_steps`). -/
def realStartEnd (ag : Aggregator) : Int × Int := (ag.usableStart, ag.end_)

variable {n : Nat}

/-- aggregator.py 79, 167, 252: `OrderedDict(sorted(dict((k.end_step, v) ...).items()))`.
Keys of a dict are distinct, so sorting the pairs compares keys only. -/
def vOrd (values : Dict Step (Arr n)) : Dict Int (Arr n) :=
  sortedBy (·.1) (Dict.ofPairs (values.map fun p => (p.1.endStep, p.2)))

/-- aggregator.py 105-106 and 128-129:
`v_ots_ma + (v_nts_ma-v_ots_ma)*((iter_ - originalts)/(next_ts-originalts))`, masked where either is. -/
def linInterp (vO vN : Arr n) (it o nx : Int) : Arr n :=
  Arr.maskedWhere (Arr.getMasks [vO, vN]) fun i =>
    vO.data i + (vN.data i - vO.data i) * (Num.ofInt (it - o) / Num.ofInt (nx - o))

/-- Loop state of `_accumulation`. -/
structure AccSt (n : Nat) where
  vOrd : Dict Int (Arr n)
  zero : Bool
  out : Dict Step (Arr n)

/-- aggregator.py 89-106: create the field at `it` when missing. -/
def accFillCur (keys : List Int) (vo : Dict Int (Arr n)) (it : Int) : Py (Dict Int (Arr n)) :=
  if it ∈ keys then .ok vo
  else do
    let iNext : Int := bisectLeft keys it
    let nextTs ← pyGet keys iNext
    let vN ← Dict.getE vo nextTs
    let iO : Int := bisectRight keys it
    let iO := if iO = iNext then iO - 1 else iO
    let origTs ← pyGet keys iO
    let vO ← Dict.getE vo origTs
    .ok (Dict.set vo it (linInterp vO vN it origTs nextTs))

/-- aggregator.py 108-129: create the field at the interval start when missing. `it` (not
`it - aggrStep`) is used in the weight, as in the code. -/
def accFillPrev (keys : List Int) (vo : Dict Int (Arr n)) (zero : Bool) (it prev : Int) :
    Py (Dict Int (Arr n) × Bool) :=
  if 0 ≤ prev ∧ prev ∉ keys ∧ zero = false then do
    let iNext : Int := bisectLeft keys prev
    let nextTs ← pyGet keys iNext
    if prev = 0 then
      .ok (Dict.set vo 0 Arr.zeros, true)
    else do
      let vN ← Dict.getE vo nextTs
      let iO : Int := bisectRight keys prev
      let iO := if iO = iNext then iO - 1 else iO
      let origTs ← pyGet keys iO
      let vO ← Dict.getE vo origTs
      .ok (Dict.set vo prev (linInterp vO vN it origTs nextTs), zero)
  else .ok (vo, zero)

/-- aggregator.py 140-148: the output field of one interval. -/
def accOut (ag : Aggregator) (vCur vPrev : Arr n) : Arr n :=
  let cur := vCur.intoZeros
  Arr.maskedWhere (Arr.getMasks [cur, vPrev]) fun i =>
    (cur.data i - vPrev.data i) * Num.ofInt ag.unitTime / Num.ofInt ag.aggrStep

/-- aggregator.py 131-138: the field at the interval start. -/
def accPrev (ag : Aggregator) (vo : Dict Int (Arr n)) (prev : Int) : Py (Arr n) :=
  if prev = 0 ∧ ag.forceZero = true then .ok Arr.zeros else Dict.getE vo prev

/-- aggregator.py 88-148: one iteration of the accumulation loop. -/
def accIter (ag : Aggregator) (res lvl : Int) (st : AccSt n) (it : Int) : Py (AccSt n) := do
  let keys := Dict.keys st.vOrd
  let vo1 ← accFillCur keys st.vOrd it
  let prev := it - ag.aggrStep
  let (vo2, zero) ← accFillPrev keys vo1 st.zero it prev
  let vPrev ← accPrev ag vo2 prev
  let vCur ← Dict.getE vo2 it
  let key : Step := ⟨prev, it, res, ag.aggrStep, lvl⟩
  .ok ⟨vo2, zero, Dict.set st.out key (accOut ag vCur vPrev)⟩

/-- aggregator.py 82-84: start 0 is changed to the aggregation step. -/
def accStart (ag : Aggregator) : Int := if ag.start = 0 then ag.aggrStep else ag.start

/-- aggregator.py 72-153 (`_accumulation`). -/
def accumulation (ag : Aggregator) (values : Dict Step (Arr n)) : Py (Dict Step (Arr n)) := do
  let first ← pyGet (Dict.keys values) 0
  let its ← pyRange ag.accStart (ag.end_ + 1) ag.aggrStep
  let st ← its.foldlM (accIter ag first.resolution first.level) ⟨vOrd values, false, []⟩
  .ok st.out

/-- aggregator.py 210-223: the field used for hour `h`. -/
def avgField (vo : Dict Int (Arr n)) (h : Int) : Py (Arr n) :=
  if h ∈ Dict.keys vo then Dict.getE vo h
  else do
    let nextTs ← pyGet (Dict.keys vo) (bisectLeft (Dict.keys vo) h)
    Dict.getE vo nextTs

/-- aggregator.py 209-224: one hour of the plain average; `temp_sum` and `sum_counter`. -/
def avgHour (vo : Dict Int (Arr n)) (acc : (Fin n → Num) × Num) (h : Int) :
    Py ((Fin n → Num) × Num) := do
  let v ← avgField vo h
  .ok (fun i => acc.1 i + v.data i, acc.2 + 1)

/-- aggregator.py 195-207: one hour of the half-weight average. -/
def halfHour (vo : Dict Int (Arr n)) (iterFrom iterTo : Int) (dt1 dt2 : Num)
    (acc : (Fin n → Num) × Num) (h : Int) : Py ((Fin n → Num) × Num) :=
  if h ∈ Dict.keys vo then do
    let v ← Dict.getE vo h
    let w := if h = iterFrom ∨ h = iterTo - 1 then dt2 else dt1
    let vma := v.scale w
    .ok (fun i => acc.1 i + vma.data i, acc.2 + w)
  else .ok acc

/-- aggregator.py 175-232: `temp_sum` and `sum_counter` of one interval. -/
def avgSums (ag : Aggregator) (vo : Dict Int (Arr n)) (it : Int) : Py ((Fin n → Num) × Num) := do
  let iterTo := it + ag.aggrStep + 1
  if ag.halfweights then
    let iterFrom := it
    let hours ← pyRange iterFrom iterTo 1
    let countSteps : Int := (hours.filter (· ∈ Dict.keys vo)).length - 1
    if countSteps > 0 then
      let dt1 := Num.ofInt ag.aggrStep / Num.ofInt countSteps
      let dt2 := dt1 / 2
      hours.foldlM (halfHour vo iterFrom iterTo dt1 dt2) (fun _ => 0, 0)
    else .ok (fun _ => 0, 0)
  else
    let hours ← pyRange (it + 1) iterTo 1
    hours.foldlM (avgHour vo) (fun _ => 0, 0)

/-- aggregator.py 168-173: iteration bounds of the average. -/
def avgBounds (ag : Aggregator) : Int × Int :=
  if ag.start = 0 ∨ ag.secondTRes = true then (ag.start, ag.end_ - ag.aggrStep + 2)
  else (ag.start - ag.aggrStep, ag.end_ - ag.aggrStep + 1)

/-- aggregator.py 175-232: one iteration of the average loop. `get_masks(v_ord.values())` gets a
single argument that is not an array, hence returns `None`: no cell is masked. -/
def avgIter (ag : Aggregator) (vo : Dict Int (Arr n)) (res lvl : Int)
    (out : Dict Step (Arr n)) (it : Int) : Py (Dict Step (Arr n)) := do
  let (s, c) ← avgSums ag vo it
  let key : Step := ⟨it, it + ag.aggrStep, res, ag.aggrStep, lvl⟩
  .ok (Dict.set out key (Arr.maskedWhere none fun i => s i / c))

/-- aggregator.py 155-236 (`_average`). -/
def average (ag : Aggregator) (values : Dict Step (Arr n)) : Py (Dict Step (Arr n)) :=
  if ag.stepType = PARAM_CUM then .error (.app NOT_IMPLEMENTED)
  else do
    let first ← pyGet (Dict.keys values) 0
    let its ← pyRange ag.avgBounds.1 ag.avgBounds.2 ag.aggrStep
    its.foldlM (avgIter ag (vOrd values) first.resolution first.level) []

/-- aggregator.py 238-242 (`_find_start`). -/
def findStart (ag : Aggregator) : Int :=
  if ag.stepType = PARAM_AVG then ag.start + ag.inputStep
  else if ag.start - ag.aggrStep > 0 then ag.start - ag.aggrStep else ag.start

/-- aggregator.py 259-276: the field extracted at `it`. -/
def instField (vo : Dict Int (Arr n)) (it : Int) : Py (Arr n) :=
  if it ∈ Dict.keys vo then do
    let v ← Dict.getE vo it
    .ok v.intoZeros
  else if it = 0 then .ok Arr.zeros
  else do
    let nextTs ← pyGet (Dict.keys vo) (bisectRight (Dict.keys vo) it)
    let v ← Dict.getE vo nextTs
    .ok v.intoZeros

/-- aggregator.py 258-277: one iteration of the instantaneous loop. -/
def instIter (ag : Aggregator) (vo : Dict Int (Arr n)) (res lvl : Int)
    (out : Dict Step (Arr n)) (it : Int) : Py (Dict Step (Arr n)) := do
  let key : Step := ⟨it, it, res, ag.aggrStep, lvl⟩
  let v ← instField vo it
  .ok (Dict.set out key v)

/-- aggregator.py 244-279 (`_instantaneous`). -/
def instantaneous (ag : Aggregator) (values : Dict Step (Arr n)) : Py (Dict Step (Arr n)) :=
  if ag.stepType = PARAM_CUM then .error (.app NOT_IMPLEMENTED)
  else do
    let first ← pyGet (Dict.keys values) 0
    let its ← pyRange ag.findStart (ag.end_ + 1) ag.aggrStep
    its.foldlM (instIter ag (vOrd values) first.resolution first.level) []

/-- aggregator.py 62-70 and 51-53 (`do_manipulation`): dispatch on the aggregation type. -/
def doManipulation (ag : Aggregator) (values : Dict Step (Arr n)) : Py (Dict Step (Arr n)) :=
  if ag.aggrType = ACCUMULATION then ag.accumulation values
  else if ag.aggrType = AVERAGE then ag.average values
  else if ag.aggrType = INSTANTANEOUS then ag.instantaneous values
  else .error .keyError

end Aggregator
end PyG2P
