import Verif.Model.Context
import Verif.Model.Controller
import Verif.Model.Writers
import Verif.Model.Exe
import Verif.Model.Tables

/-! # Programming interface — src/pyg2p/main/api.py 82-315

`Command` (28-79) is in `Model.Strings`. -/

namespace PyG2P
namespace Api

/-! ## Options (api.py 98-228, `ApiContext`) -/

/-- The top level of the dictionary given to `ApiContext`; a missing key is `null`, except for `start` and `end`, which
are read with `[...]` (102-103): `none` stands for a missing key there. -/
structure Top where
  start : Option JVal
  end_ : Option JVal
  dataTime : JVal
  dataDate : JVal
  fmap : JVal
  ext : JVal
  namePrefix : JVal
  scaleFactor : JVal
  offset : JVal
  validMin : JVal
  validMax : JVal
  valueFormat : JVal
  outputStepUnits : JVal
  intertableDir : JVal
  geopotentialDir : JVal

/-- `v == 1`. -/
def isOne : JVal → Bool
  | .int z => decide (z = 1)
  | .num q => decide (q = 1)
  | .bool b => b
  | _ => false

/-- api.py 102-103, 206-213: `if v is None and json: int(json)`. -/
def intOpt (v json : JVal) : Py JVal :=
  if v = .null ∧ json.truthy = true then (JVal.toInt json).map .int else .ok v

/-- api.py 186-197: `if v is None: v = json or d`. -/
def strOpt (v json d : JVal) : JVal := if v = .null then json.orElse d else v

/-- api.py 188-195, the options without a default. -/
def rawOpt (v json : JVal) : JVal := if v = .null then json else v

/-- api.py 198-201: the JSON value is looked at only if the option is 1. -/
def numOpt (v json : JVal) : JVal := if isOne v then json.orElse (.int 1) else v

/-- api.py 98-213: the value an option gets; `j` holds the sections `Parameter` and `OutMaps` (keys without `@`).
`outMaps.format` is never set; the folders in the section `Interpolation` are not looked at (176-177 and 164-165 can
only repeat 127-128). -/
def optValue (top : Top) (j : Json) (tblDir geoDir : Str) : Opt → Py JVal
  | .tstart => match top.start with
    | none => .error .keyError
    | some v => intOpt v j.tstart
  | .tend => match top.end_ with
    | none => .error .keyError
    | some v => intOpt v j.tend
  | .dataTime => intOpt top.dataTime j.dataTime
  | .dataDate => intOpt top.dataDate j.dataDate
  | .fmap => .ok (numOpt top.fmap j.fmap)
  | .ext => .ok (numOpt top.ext j.ext)
  | .format => .ok .null
  | .namePrefix => .ok (top.namePrefix.orElse (j.namePrefix.orElse (.str j.shortName)))
  | .scaleFactor => .ok (strOpt top.scaleFactor j.scaleFactor (.num 1))
  | .offset => .ok (strOpt top.offset j.offset (.num 0))
  | .validMin => .ok (rawOpt top.validMin j.validMin)
  | .validMax => .ok (rawOpt top.validMax j.validMax)
  | .valueFormat => .ok (rawOpt top.valueFormat j.valueFormat)
  | .outputStepUnits => .ok (rawOpt top.outputStepUnits j.outputStepUnits)
  | .intertableDir => .ok (top.intertableDir.orElse (.str tblDir))
  | .geopotentialDir => .ok (top.geopotentialDir.orElse (.str geoDir))

/-- The aggregation options the controller uses (controller.py 46-56; a variable that is not set is `None`). -/
structure AggOpts where
  doAggregation : Bool
  step : JVal
  type : JVal
  halfweights : Bool
  forceZero : Bool
  deriving DecidableEq

/-- context.py 417-425: the aggregation options of a command; `half`: the value of `@halfweights`. -/
def cliAggregation (a : Option JAggr) (half : JVal) : Py AggOpts :=
  match a with
  | none => .ok ⟨false, .null, .null, false, false⟩
  | some j => do
    let z ← forceZero j
    .ok ⟨doAggregation (some j), j.step, j.type, half.truthy, z⟩

/-- api.py 217-223: the aggregation options of an API run; `halfweights` is not read. -/
def apiAggregation (a : Option JAggr) (_half : JVal) : Py AggOpts :=
  match a with
  | none => .ok ⟨false, .null, .null, false, false⟩
  | some j => do
    let z ← forceZero j
    .ok ⟨doAggregation (some j), j.step, j.type, false, z⟩

/-! ## Execution (api.py 258-315, `Pyg2pApi`) -/

/-- api.py 273-279 (`_mask_values`): the array returned for a map. -/
def maskValues {n : Nat} (mask : Option (Fin n → Bool)) (mv : Num) (values : Arr n) : Fin n → Num := fun i =>
  if outside mask i || values.masked i then mv else values.data i

/-- api.py 297-315: the maps returned, for the values of the controller; `render` as in `writePcraster`. -/
def execute {α : Type} {n : Nat} (mask : Option (Fin n → Bool)) (mv : Num) (render : Bool → α → Arr n)
    (change : Option Step) (values : List (Step × α)) : List (Step × (Fin n → Num)) :=
  sortedBy (fun p => p.1.endStep)
    ((gridLoop change false values).foldl (fun out q => Dict.set out q.1 (maskValues mask mv (render q.2.2 q.2.1))) [])

/-- api.py 286-291: what the run holds when it ends; the controller is not closed, and neither is the reader of 286
(second component). -/
def held (p : Phases) : Held × Bool := ((execCtrl p).1, p.openReader.isNone)

/-- api.py 292, interpolation/__init__.py 272-280, 322-331: the interpolator of an API run was not given the auxiliary
message (`_aux_gid` and `_aux_val` are `None`), so building a table with it raises (the kind of exception is not
modelled). -/
def gribBuild {τ : Type} : Py τ := .error .typeError

/-- api.py 240-245 (`parameter_details()`): the names listed, from the user's file alone (config.py 131-140). -/
def parameterNames {V : Type} (c : Conf V) : Py (List Str) :=
  match c.disk with
  | none => .error .fileNotFound
  | some (.obj d) => .ok (Dict.keys d)
  | some (.text _) => .error .attributeError
  | some .invalid => .error (.app JSON_ERROR)

end Api
end PyG2P
