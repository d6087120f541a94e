import Verif.Model.Reader
import Verif.Model.Aggregator

/-! # Execution parameters — src/pyg2p/main/context.py, controller.py 32-58

Simplifications: JSON values are scalars (a missing key is `null`); letters, digits and `int(...)` of a
string are ASCII. -/

namespace PyG2P

/-- A scalar JSON (or command-line) value. -/
inductive JVal where
  | null
  | bool (b : Bool)
  | int (z : Int)
  | num (q : ℚ)
  | str (s : Str)
  deriving DecidableEq

namespace JVal

/-- Python truth value. -/
def truthy : JVal → Bool
  | null => false
  | bool b => b
  | int z => decide (z ≠ 0)
  | num q => decide (q ≠ 0)
  | str s => decide (s ≠ [])

/-- `v or d`. -/
def orElse (v d : JVal) : JVal := if v.truthy then v else d

/-- `v` or `None`. -/
def ofOption {α : Type} (f : α → JVal) : Option α → JVal
  | none => null
  | some a => f a

end JVal

namespace Str

/-- an ASCII digit. -/
def isDigitChar (c : Char) : Bool := decide ('0' ≤ c ∧ c ≤ '9')

/-- `s.isdigit()`. -/
def isDigit (s : Str) : Bool := decide (s ≠ []) && s.all isDigitChar

/-- the number written in decimal. -/
def natOf (s : Str) : Nat := s.foldl (fun n c => 10 * n + (c.toNat - 48)) 0

/-- `int(s)`; `ValueError` unless an optional sign and digits. -/
def toInt (s : Str) : Py Int :=
  match s with
  | '-' :: r => if isDigit r then .ok (-(natOf r)) else .error .valueError
  | '+' :: r => if isDigit r then .ok (natOf r) else .error .valueError
  | _ => if isDigit s then .ok (natOf s) else .error .valueError

/-- `s.upper()`. -/
def upper (s : Str) : Str := s.map Char.toUpper
/-- `s.lower()`. -/
def lower (s : Str) : Str := s.map Char.toLower

end Str

/-- `int(v)`. -/
def JVal.toInt : JVal → Py Int
  | .null => .error .typeError
  | .bool b => .ok (if b then 1 else 0)
  | .int z => .ok z
  | .num q => .ok (if 0 ≤ q then ⌊q⌋ else ⌈q⌉)
  | .str s => Str.toInt s

/-! ## Command line and JSON (context.py 319-428) -/

/-- The options given on the command line (context.py 258-315); `none`: not given. -/
structure Cli where
  start : Option Int
  end_ : Option Int
  dataTime : Option Int
  dataDate : Option Int
  fmap : Option Int
  ext : Option Int
  format : Option Str
  namePrefix : Option Str
  scaleFactor : Option Str
  offset : Option Str
  validMin : Option Str
  validMax : Option Str
  valueFormat : Option Str
  outputStepUnits : Option Str
  intertableDir : Option Str
  geopotentialDir : Option Str

/-- The attributes of the JSON commands file that are used here. -/
structure Json where
  shortName : Str
  tstart : JVal
  tend : JVal
  dataTime : JVal
  dataDate : JVal
  fmap : JVal
  ext : JVal
  format : JVal
  namePrefix : JVal
  scaleFactor : JVal
  offset : JVal
  validMin : JVal
  validMax : JVal
  valueFormat : JVal
  outputStepUnits : JVal
  intertableDir : JVal
  geopotentialDir : JVal

/-- The options that both sources can set. -/
inductive Opt where
  | tstart | tend | dataTime | dataDate | fmap | ext | format | namePrefix | scaleFactor | offset
  | validMin | validMax | valueFormat | outputStepUnits | intertableDir | geopotentialDir
  deriving DecidableEq

/-- context.py 406-413: `tstart`, `tend`, `dataTime`, `dataDate`. -/
def intOpt (cli : Option Int) (json : JVal) : Py JVal :=
  match cli with
  | some z => .ok (.int z)
  | none => if json.truthy then (JVal.toInt json).map .int else .ok .null

/-- context.py 384-387: options left alone unless `None`; `d` the default. -/
def strOpt (cli : Option Str) (json d : JVal) : Py JVal :=
  match cli with
  | some s => .ok (.str s)
  | none => .ok (json.orElse d)

/-- context.py 388-395, the options without a default: the JSON value itself. -/
def rawOpt (cli : Option Str) (json : JVal) : Py JVal :=
  match cli with
  | some s => .ok (.str s)
  | none => .ok json

/-- context.py 228, 230, 396-399: argparse fills in 1; a 1 is then replaced by the JSON value. -/
def numOpt (cli : Option Int) (json : JVal) : Py JVal :=
  let v := cli.getD 1
  .ok (if v = 1 then json.orElse (.int 1) else .int v)

/-- context.py 229, 278-280, 400-402: argparse fills in `'notset'`. -/
def formatOpt (cli : Option Str) (json : JVal) : Py JVal :=
  let v := cli.getD "notset".toList
  .ok (if v = "notset".toList then json.orElse (.str "pcraster".toList) else .str v)

/-- context.py 381-383. -/
def prefixOpt (cli : Option Str) (json : JVal) (shortName : Str) : Py JVal :=
  match cli with
  | some (c :: s) => .ok (.str (c :: s))
  | _ => .ok (json.orElse (.str shortName))

/-- context.py 247-252, 369-374: the user folder of tables or geopotentials. -/
def dirOpt (cli : Option Str) (json : JVal) (dflt : Str) : Py JVal :=
  match cli with
  | some (c :: s) => .ok (.str (c :: s))
  | _ => .ok (json.orElse (.str dflt))

/-- context.py 219-252, 369-413: the value an option gets. `tblDir`, `geoDir`: default folders. -/
def optValue (cli : Cli) (j : Json) (tblDir geoDir : Str) : Opt → Py JVal
  | .tstart => intOpt cli.start j.tstart
  | .tend => intOpt cli.end_ j.tend
  | .dataTime => intOpt cli.dataTime j.dataTime
  | .dataDate => intOpt cli.dataDate j.dataDate
  | .fmap => numOpt cli.fmap j.fmap
  | .ext => numOpt cli.ext j.ext
  | .format => formatOpt cli.format j.format
  | .namePrefix => prefixOpt cli.namePrefix j.namePrefix j.shortName
  | .scaleFactor => strOpt cli.scaleFactor j.scaleFactor (.num 1)
  | .offset => strOpt cli.offset j.offset (.num 0)
  | .validMin => rawOpt cli.validMin j.validMin
  | .validMax => rawOpt cli.validMax j.validMax
  | .valueFormat => rawOpt cli.valueFormat j.valueFormat
  | .outputStepUnits => rawOpt cli.outputStepUnits j.outputStepUnits
  | .intertableDir => dirOpt cli.intertableDir j.intertableDir tblDir
  | .geopotentialDir => dirOpt cli.geopotentialDir j.geopotentialDir geoDir

/-! ## Checks (context.py 82-137) -/

/-- The file system as seen by the checks: `files.exists` (files.py 27-28) for files and folders, and
whether a folder can be created. -/
structure Fs where
  isFile : Str → Bool
  isDir : Str → Bool
  canCreate : Str → Bool

/-- context.py 14. -/
def allowedMethods : List Str :=
  ["grib_nearest", "grib_invdist", "nearest", "invdist", "adw", "cdd", "bilinear", "triangulation",
    "bilinear_delaunay"].map String.toList

/-- The parameters inspected. -/
structure Params where
  inputFile : Option Str
  lonMap : Str
  latMap : Str
  clone : Str
  mode : Str
  outDir : Str
  level : JVal
  unitTime : JVal
  tstart : Option Int
  tend : Option Int
  doCorrection : Bool
  gemFormula : Option Str
  demMap : Option Str
  formula : Option Str

/-- The parameters as rewritten by the checks. -/
structure Checked where
  outDir : Str
  level : Option Int
  unitTime : JVal

/-- `bool(s)` of an optional string. -/
def given (s : Option Str) : Bool := decide (s ≠ none ∧ s ≠ some [])

/-- `bool(z)` of an optional number. -/
def givenInt (z : Option Int) : Bool := decide (z ≠ none ∧ z ≠ some 0)

/-- context.py 109-117: the output folder; any error becomes an `ApplicationException` without code. -/
def outDirOf (fs : Fs) (d : Str) : Py Str :=
  if d = "./".toList then .ok d
  else
    let d' := if d.getLast? = some '/' then d else d ++ ['/']
    if fs.isDir d' then .ok d'
    else if fs.canCreate d' then .ok d' else .error .appNoCode

/-- context.py 121-123: the level; a number instead of a string has no `isdigit`. -/
def levelOf (v : JVal) : Py (Option Int) :=
  if v.truthy then
    match v with
    | .str s => if Str.isDigit s then (Str.toInt s).map some else .error (.app 1400)
    | _ => .error .attributeError
  else .ok none

/-- context.py 125. -/
def unitTimeOf (v : JVal) : Py JVal :=
  match v with
  | .null => .ok (.str "24".toList)
  | _ => (JVal.toInt v).map .int

/-- context.py 82-137 (`_check_exec_params`) when no geopotential is added. -/
def checkParams (fs : Fs) (p : Params) : Py Checked := do
  if given p.inputFile = false then throw (.app 1001)
  if fs.isFile (p.inputFile.getD []) = false then throw (.app 1000)
  if fs.isFile p.lonMap = false ∨ fs.isFile p.latMap = false then throw (.app 1300)
  if fs.isFile p.clone = false then throw (.app 1310)
  if p.mode ∉ allowedMethods then throw (.app 8400)
  let outDir ← outDirOf fs p.outDir
  let level ← levelOf p.level
  let unitTime ← unitTimeOf p.unitTime
  if givenInt p.tstart ∧ givenInt p.tend ∧ ¬ p.tstart.getD 0 ≤ p.tend.getD 0 then throw (.app 1500)
  if p.doCorrection ∧ ¬ (given p.gemFormula ∧ given p.demMap ∧ given p.formula) then throw (.app 4100)
  if p.doCorrection ∧ fs.isFile (p.demMap.getD []) = false then throw (.app 4200)
  return ⟨outDir, level, unitTime⟩

/-! ## Selection arguments (context.py 145-175) -/

/-- The parameters that select messages. -/
structure SelPar where
  shortName : Str
  level : Option Int
  dataTime : Option Int
  dataDate : Option Int
  perturbation : Option Int

/-- an optional equality condition. -/
def optCond (k : String) : Option Int → Kwargs
  | none => []
  | some z => [(k.toList, .eq (.int z))]

/-- `lambda s: s <= e`. -/
def atMost (e : Int) : KV → Bool
  | .int z => decide (z ≤ e)
  | .str _ => false

/-- `lambda s: s >= b`. -/
def atLeast (b : Int) : KV → Bool
  | .int z => decide (b ≤ z)
  | .str _ => false

/-- context.py 145-168 (`create_select_cmd_for_reader`). -/
def selectCmd (p : SelPar) (start end_ : Int) : Kwargs :=
  [("shortName".toList, Cond.mem [.str p.shortName, .str (Str.upper p.shortName),
      .str (p.shortName ++ "var".toList)])]
  ++ optCond "level" p.level ++ optCond "dataTime" p.dataTime ++ optCond "dataDate" p.dataDate
  ++ optCond "perturbationNumber" p.perturbation
  ++ (if start = end_ then
        [("endStep".toList, .eq (.int end_)), ("startStep".toList, .eq (.int start))]
      else [("endStep".toList, .pred (atMost end_)), ("startStep".toList, .pred (atLeast start))])

/-- context.py 170-175 (`create_select_cmd_for_aggregation_attrs`). -/
def infoCmd (p : SelPar) : Kwargs :=
  ("shortName".toList, .eq (.str p.shortName)) :: optCond "perturbationNumber" p.perturbation

/-- controller.py 39-57: the window asked from the reader. `aggr`: the aggregation step, if any;
`inputStep` and `infoEnd` come from the file. -/
def readerWindow (tstart tend : Option Int) (aggr : Option Int) (inputStep infoEnd : Int) : Int × Int :=
  let start := if givenInt tstart then tstart.getD 0 else 0
  let end_ := if givenInt tend then tend.getD 0 else infoEnd
  match aggr with
  | none => (start, end_)
  | some a => (Aggregator.init "" inputStep 0 a "" false false start end_).realStartEnd

/-! ## Aggregation switches (context.py 417-425) -/

/-- strings.py 36. -/
def falseStrings : List Str :=
  ["FALSE", "F", "f", "False", "false", "NO", "no", "No", "0", "off", "OFF", "Off", "nO"].map String.toList

/-- The `Aggregation` object of the JSON file. -/
structure JAggr where
  step : JVal
  type : JVal
  forceZero : Option JVal

/-- context.py 417-423. -/
def doAggregation : Option JAggr → Bool
  | none => false
  | some a => a.step.truthy && a.type.truthy

/-- context.py 424-425: `@forceZeroArray` defaults to `'False'`; a value that is not a string has no
`lower`. -/
def forceZero (a : JAggr) : Py Bool :=
  if a.type = .str "accumulation".toList then
    match a.forceZero.getD (.str "False".toList) with
    | .str s => .ok (decide (Str.lower s ∉ falseStrings))
    | _ => .error .attributeError
  else .ok false

end PyG2P
