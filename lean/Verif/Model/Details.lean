import Verif.Model.Config
import Verif.Model.Api

/-! # Descriptions of parameters — src/pyg2p/main/api.py 229-257, src/pyg2p/main/config.py 207-221

Entries of `parameters.json` as read, with any attribute missing. A `Conversion` that is neither an object nor a list of
objects is not modelled. `str` is Python's `str` of a JSON value. -/

namespace PyG2P
namespace Details

/-- The attributes of a JSON object. -/
abbrev Attrs := Dict Str JVal

/-- The value of `Conversion`: missing, an object, or a list of objects. -/
inductive RawConv where
  | absent
  | one (c : Attrs)
  | many (cs : List Attrs)

/-- A parameter: its attributes other than `Conversion`, and `Conversion`. -/
structure RawParam where
  attrs : Attrs
  conversion : RawConv

/-- config.py 209: an object without any attribute is false. -/
def RawParam.truthy (p : RawParam) : Bool :=
  match p.conversion with
  | .absent => !p.attrs.isEmpty
  | _ => true

/-- `d[key]`. -/
def item (d : Attrs) (key : String) : Py JVal :=
  match Dict.get? d key.toList with
  | some v => .ok v
  | none => .error .keyError

/-- api.py 254-256: the line of a conversion. -/
def convLine (str : JVal → Str) (c : Attrs) : Py Str := do
  let id ← item c "@id"
  let unit ← item c "@unit"
  let function ← item c "@function"
  let cut ← item c "@cutOffNegative"
  pure ("Conversion id: ".toList ++ str id ++ " unit ".toList ++ str unit ++ " ".toList ++ str function ++
    " [cut negative: ".toList ++ str cut ++ "]".toList)

/-- api.py 254-256: the loop over the conversions. -/
def addLines (str : JVal → Str) : Str → List Attrs → Py Str
  | out, [] => .ok out
  | out, c :: cs => do
    let line ← convLine str c
    addLines str (out ++ '\n' :: line) cs

/-- api.py 249-257: the description of one parameter. -/
def describe (str : JVal → Str) (p : RawParam) : Py Str := do
  let name ← item p.attrs "@shortName"
  let description ← item p.attrs "@description"
  let unit ← item p.attrs "@unit"
  let out := "Parameter ".toList ++ str name ++ ": ".toList ++ str description ++ " Unit: ".toList ++ str unit
  match p.conversion with
  | .absent => .error .keyError
  | .one c => addLines str out [c]
  | .many cs => addLines str out cs

/-- `'\n'.join(names)`. -/
def joinLines : List Str → Str
  | [] => []
  | [x] => x
  | x :: y :: l => x ++ '\n' :: joinLines (y :: l)

/-- api.py 229-257 (`Pyg2pApi.parameter_details`): `c` the configuration of the parameters, `none` and `''` ask for the
list of names. -/
def parameterDetails (str : JVal → Str) (c : Conf RawParam) (shortName : Option Str) : Py Str :=
  match shortName with
  | none => (Api.parameterNames c).map fun names => "Available parameters short names: \n".toList ++ joinLines names
  | some [] => (Api.parameterNames c).map fun names => "Available parameters short names: \n".toList ++ joinLines names
  | some name => (getParameter RawParam.truthy c.vars name).bind (describe str)

/-- config.py 214-217: the loop of `get_conversion`. -/
def findConversion (id : Str) : List Attrs → Py Attrs
  | [] => .error (.app 1200)
  | c :: cs => do
    let v ← item c "@id"
    if v = .str id then pure c else findConversion id cs

/-- config.py 213-221 (`get_conversion`) on the entry as read. -/
def rawConversion (r : RawConv) (id : Str) : Py Attrs :=
  match r with
  | .absent => .error (.app 1200)
  | .one a => findConversion id [a]
  | .many as => findConversion id as

/-- What a command takes from the configuration (context.py 340-351): description, unit, and with a conversion its unit,
function and cut-off attribute (`None` if missing). The message of error 1200 names `@shortName`. -/
structure Taken where
  description : JVal
  unit : JVal
  function : Option JVal
  cutOff : JVal

/-- context.py 340-351, api.py 147-158. -/
def commandTakes (c : Conf RawParam) (name : Str) (id : Option Str) : Py Taken := do
  let p ← getParameter RawParam.truthy c.vars name
  let description ← item p.attrs "@description"
  let unit ← item p.attrs "@unit"
  match id with
  | none => pure ⟨description, unit, none, .null⟩
  | some id =>
    match rawConversion p.conversion id with
    | .error (.app n) => (item p.attrs "@shortName").bind fun _ => .error (.app n)
    | .error e => .error e
    | .ok a => do
      let u ← item a "@unit"
      let f ← item a "@function"
      pure ⟨description, u, some f, (Dict.get? a "@cutOffNegative".toList).getD .null⟩

end Details
end PyG2P
