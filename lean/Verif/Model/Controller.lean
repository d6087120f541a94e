import Verif.Model.Aggregator
import Verif.Model.Messages

/-! # Controller — src/pyg2p/main/controller.py

What happens between reading the messages and writing the maps. -/

namespace PyG2P

/-- The maps of a run: some on the grid of the first resolution (`n` cells), some on that of the second. -/
abbrev Field (n m : Nat) := Arr n ⊕ Arr m

/-- What the controller works on after selection and conversion (controller.py 83-111): the messages, whether
to aggregate, the option `aggregation.step`, the other aggregation options, the input step and step type of the
two files (info of the first file, `messages.step_type`), the requested range, and whether negative values are
cut off. -/
structure CtrlIn (n m : Nat) where
  msgs : MsgSet n m
  aggregate : Bool
  aggrStep : Option Int
  aggrType : String
  halfweights : Bool
  forceZero : Bool
  unitTime : Int
  inputStep : Int
  stepType : String
  stepType2 : String
  start : Int
  end_ : Int
  cutOff : Bool

namespace CtrlIn
variable {n m : Nat}

/-- controller.py 46-56: the aggregator of the first resolution (`a`: the aggregation step). -/
def aggregator (c : CtrlIn n m) (a : Int) : Aggregator :=
  Aggregator.init c.stepType c.inputStep c.unitTime a c.aggrType c.halfweights c.forceZero c.start c.end_

/-- controller.py 64-69: the aggregator of the second resolution. -/
def aggregator2 (c : CtrlIn n m) (a start2 : Int) : Aggregator :=
  Aggregator.init c.stepType2 c.inputStep c.unitTime a c.aggrType c.halfweights c.forceZero start2 c.end_

/-- controller.py 111-119: the maps of the first resolution. With a resolution change the end step becomes the
start step of the first message of the second resolution. Without the option, aggregation raises `TypeError`. -/
def firstPart (c : CtrlIn n m) : Py (Dict Step (Arr n)) :=
  if c.aggregate then
    match c.aggrStep with
    | none => .error .typeError
    | some a =>
      match c.msgs.changeResolutionStep with
      | none => (c.aggregator a).doManipulation c.msgs.first
      | some s => ((c.aggregator a).changeEndStep s.startStep).doManipulation c.msgs.first
  else .ok c.msgs.first

/-- controller.py 60-74, 121-128: the maps of both resolutions and the change step. `int(None)` raises
`TypeError` (121). -/
def secondPart (c : CtrlIn n m) (v1 : Dict Step (Arr n)) : Py (Dict Step (Field n m) × Option Step) :=
  let w1 : Dict Step (Field n m) := v1.map fun p => (p.1, .inl p.2)
  match c.msgs.changeResolutionStep with
  | none => .ok (w1, none)
  | some s =>
    match c.aggrStep with
    | none => .error .typeError
    | some a =>
      if c.aggregate = true ∧ s.endStep + a < c.end_ then
        match (c.aggregator2 a (s.endStep + a)).doManipulation c.msgs.second with
        | .error e => .error e
        | .ok v2 =>
          match pyGet (sortedBy Step.endStep (Dict.keys v2)) 0 with
          | .error e => .error e
          | .ok k => .ok (Dict.update w1 (v2.map fun p => (p.1, Sum.inr p.2)), some k)
      else .ok (w1, some s)

/-- conversion.py 44-52 on a map of either resolution. -/
def cutField : Field n m → Field n m
  | .inl a => .inl (Converter.cutOffField a)
  | .inr a => .inr (Converter.cutOffField a)

/-- controller.py 130-138: cut-off and sorting by end step. The result are the maps in the order in which they
are written, and the change step. -/
def run (c : CtrlIn n m) : Py (Dict Step (Field n m) × Option Step) :=
  match c.firstPart with
  | .error e => .error e
  | .ok v1 =>
    match c.secondPart v1 with
    | .error e => .error e
    | .ok (v, ch) =>
      let v' := if c.cutOff then v.map fun p => (p.1, cutField p.2) else v
      .ok (sortedBy (fun p => p.1.endStep) v', ch)

end CtrlIn
end PyG2P
