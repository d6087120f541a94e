import Verif.Py

/-! # Step keys — src/pyg2p/__init__.py 30-54 -/

namespace PyG2P

/-- src/pyg2p/__init__.py 30-38 (`Step.__init__`). All five components are GRIB integers. -/
structure Step where
  startStep : Int
  endStep : Int
  resolution : Int
  inputStep : Int
  level : Int
  deriving DecidableEq, Repr

namespace Step

/-- src/pyg2p/__init__.py 43-45 (`__eq__`): comparison of the two 5-tuples. -/
def pyEq (a b : Step) : Bool :=
  a.startStep == b.startStep && a.endStep == b.endStep && a.resolution == b.resolution
    && a.inputStep == b.inputStep && a.level == b.level

/-- src/pyg2p/__init__.py 40-41 (`__hash__`): the tuple that is hashed. -/
def hashTuple (a : Step) : Int × Int × Int × Int × Int :=
  (a.startStep, a.endStep, a.resolution, a.inputStep, a.level)

/-- src/pyg2p/__init__.py 50-51 (`__lt__`). -/
def pyLt (a b : Step) : Bool := decide (a.startStep < b.startStep)

/-- src/pyg2p/__init__.py 53-54 (`__le__`). -/
def pyLe (a b : Step) : Bool := decide (a.startStep ≤ b.startStep)

end Step
end PyG2P
