import Verif.Model.ArgParse
import Verif.Model.Config
import Verif.Model.Strings
import Verif.Model.FileRun
import Verif.Model.NetcdfRun
import Verif.Model.TwoFiles

/-! # A command from the argument vector to the maps — main/__init__.py 13-55, context.py 180-428, controller.py 32-138

One or two input files; no configuration command. Simplifications: attributes that the program needs are in the
command file (`@shortName`, `@cloneMap`, `@latMap`, `@lonMap`, `@name`); values of a wrong type in the aggregation or the
numbering are met when the settings are put together, not later in the run; those of the numbering also with netCDF
output, where Python does not look at them. -/

namespace PyG2P
namespace CommandRun
variable {n k : Nat}

/-- The command file (context.py 329-425). `base`: the options that the command line can also give; `aggr`: the
`Aggregation` object, with `@halfweights`. -/
structure CmdFile where
  base : Json
  applyConversion : JVal
  correctionFormula : JVal
  gem : JVal
  demMap : JVal
  cloneMap : Str
  latMap : Str
  lonMap : Str
  mode : Option JVal
  unitTime : JVal
  level : JVal
  aggr : Option (JAggr × JVal)

/-- Everything a command finds: files, command files, the parameters known (merged configuration; `truthy`: an entry that
is not empty), user variables, GRIB files (with whether eccodes can index them; `second`: read as the second input file), and what depends on the maps named in the
command: the tables of the two grids (by method, latitudes, longitudes and input), the missing value of the latitudes, the
mask and missing value of a clone, the correctors of the two grids (by formula, gem formula and DEM). `describe`:
description and unit of a parameter; `float`, `overflow`: see `NcOut`. -/
structure Site (n k : Nat) where
  fs : Fs
  commands : Str → CmdFile
  parameters : Dict Str Conversions
  known : Conversions → Bool
  vars : Dict Str Str
  special : Str → Py Str
  tblDir : Str
  geoDir : Str
  cwd : Str
  grib : Str → List (GMsg (Arr n)) × Bool
  second : Str → (m : Nat) × SecondFile m
  tables : Str → Str → Str → Str → Table k × Table k
  mvOf : Str → Num
  clone : Str → Option (Fin k → Bool) × Num
  heights : Str → Str → Str → Height k × Height k
  describe : Str → Str × Str
  float : Str → Option ℚ
  overflow : Int → ℚ

/-- a text value (an empty one for other values). -/
def textOf : JVal → Str
  | .str s => s
  | _ => []

/-- a number (or nothing). -/
def numberOf : JVal → Option Int
  | .int z => some z
  | _ => none

/-- `os.path.join(folder, name)`: an absolute name replaces the folder. -/
def osJoin (folder name : Str) : Str := if name.head? = some '/' then name else joinPath folder name

/-- context.py 325-326: a relative path starting with `./` or `../` is put after the current folder. -/
def commandsPath (cwd p : Str) : Str :=
  if List.isPrefixOf "./".toList p ∨ List.isPrefixOf "../".toList p then osJoin cwd p else p

/-- context.py 345-352: the conversion asked for: its function and whether negative values are cut off. -/
def conversionOf (cs : Conversions) (v : JVal) : Py (Option (Str × Bool)) :=
  if v.truthy then
    match getConversion cs (textOf v) with
    | .error e => .error e
    | .ok c => (toBoolean c.cutOff).map fun b => some (c.function, b)
  else .ok none

/-- context.py 354-359: the correction asked for: formula, gem formula, DEM. -/
def correctionOf (cf : CmdFile) : Option (Str × Str × Str) :=
  if cf.correctionFormula.truthy ∧ cf.gem.truthy ∧ cf.demMap.truthy then
    some (textOf cf.correctionFormula, textOf cf.gem, textOf cf.demMap)
  else none

/-- config.py 65-81: user variables in the path of the DEM. -/
def expandDem (special : Str → Py Str) (vars : Dict Str Str) (c : Option (Str × Str × Str)) :
    Py (Option (Str × Str × Str)) :=
  match c with
  | none => .ok none
  | some (f, g, d) => (interpolateOne special vars d).map fun d' => some (f, g, d')

/-- The parameters of a run (context.py 319-428), before the checks. -/
structure Defined where
  shortName : Str
  conversion : Option (Str × Bool)
  correction : Option (Str × Str × Str)
  clone : Str
  mode : Str
  latMap : Str
  lonMap : Str
  unitTime : JVal
  level : JVal
  tstart : JVal
  tend : JVal
  dataTime : JVal
  dataDate : JVal
  namePrefix : JVal
  fmap : JVal
  ext : JVal
  format : JVal
  aggr : Option (JAggr × Bool × Bool)

/-- context.py 417-425: the aggregation, if there is one, with half weights and the forced zero field. -/
def aggrOf (a : Option (JAggr × JVal)) : Py (Option (JAggr × Bool × Bool)) :=
  match a with
  | none => .ok none
  | some (x, h) => (forceZero x).map fun z => if doAggregation (some x) then some (x, h.truthy, z) else none

/-- context.py 319-428 (`_define_exec_params`) once the command file is read; config.py 65-81 for the paths. -/
def define (s : Site n k) (cli : Cli) (cf : CmdFile) : Py Defined := do
  let cs ← getParameter s.known s.parameters cf.base.shortName
  let conversion ← conversionOf cs cf.applyConversion
  let opt := optValue cli cf.base s.tblDir s.geoDir
  let namePrefix ← opt .namePrefix
  let fmap ← opt .fmap
  let ext ← opt .ext
  let format ← opt .format
  let tstart ← opt .tstart
  let tend ← opt .tend
  let dataTime ← opt .dataTime
  let dataDate ← opt .dataDate
  let aggr ← aggrOf cf.aggr
  let correction ← expandDem s.special s.vars (correctionOf cf)
  let clone ← interpolateOne s.special s.vars cf.cloneMap
  let latMap ← interpolateOne s.special s.vars cf.latMap
  let lonMap ← interpolateOne s.special s.vars cf.lonMap
  return {
    shortName := cf.base.shortName
    conversion := conversion
    correction := correction
    clone := clone
    mode := textOf (cf.mode.getD (.str "grib_nearest".toList))
    latMap := latMap
    lonMap := lonMap
    unitTime := cf.unitTime
    level := cf.level
    tstart := tstart
    tend := tend
    dataTime := dataTime
    dataDate := dataDate
    namePrefix := namePrefix
    fmap := fmap
    ext := ext
    format := format
    aggr := aggr }

/-- The parameters that the checks look at (context.py 82-137). -/
def params (d : Dict Str JVal) (v : Defined) : Params where
  inputFile := ArgParse.asText d "inputFile"
  lonMap := v.lonMap
  latMap := v.latMap
  clone := v.clone
  mode := v.mode
  outDir := (ArgParse.asText d "outDir").getD []
  level := v.level
  unitTime := v.unitTime
  tstart := numberOf v.tstart
  tend := numberOf v.tend
  doCorrection := v.correction.isSome
  gemFormula := v.correction.map fun c => c.2.1
  demMap := v.correction.map fun c => c.2.2
  formula := v.correction.map fun c => c.1

/-- a number needed for the numbering of the maps (writers/__init__.py 125). -/
def needInt : JVal → Py Int
  | .int z => .ok z
  | _ => .error .typeError

/-- aggregator.py 33-37: the options of the aggregation. -/
def aggrOpts : Option (JAggr × Bool × Bool) → Py (Option AggrOpts)
  | none => .ok none
  | some (a, h, z) => (JVal.toInt a.step).map fun st => some ⟨st, String.ofList (textOf a.type), h, z⟩

/-- The controller's input (controller.py 32-58) from the parameters as checked. -/
def fileIn (s : Site n k) (d : Dict Str JVal) (v : Defined) (c : Checked) : Py (FileIn n k) := do
  let unitTime ← JVal.toInt c.unitTime
  let aggr ← aggrOpts v.aggr
  let fmap ← needInt v.fmap
  let ext ← needInt v.ext
  let input := (ArgParse.asText d "inputFile").getD []
  return {
    file := (s.grib input).1
    indexable := (s.grib input).2
    sel := ⟨v.shortName, c.level, numberOf v.dataTime, numberOf v.dataDate, ArgParse.asInt d "perturbationNumber"⟩
    tstart := numberOf v.tstart
    tend := numberOf v.tend
    aggr := aggr
    unitTime := unitTime
    cutOff := (v.conversion.map Prod.snd).getD false
    conversion := v.conversion.map fun p => some p.1
    table := (s.tables v.mode v.latMap v.lonMap input).1
    table2 := (s.tables v.mode v.latMap v.lonMap input).2
    mvOut := s.mvOf v.latMap
    height := v.correction.map fun p => (s.heights p.1 p.2.1 p.2.2).1
    height2 := v.correction.map fun p => (s.heights p.1 p.2.1 p.2.2).2
    mask := (s.clone v.clone).1
    mvClone := (s.clone v.clone).2
    namePrefix := textOf v.namePrefix
    fmap := fmap
    ext := ext
    gridId := []
    gridId2 := [] }

/-- How a command ends: exit status or an exception that is not caught, and the maps written by a run that ends well;
`stored`: with status 0 and a netCDF data set (what a failed run leaves of it is not modelled); `help`: the help was
printed (`SystemExit`); `other`: a value format that is not modelled. -/
inductive Result (k : Nat) where
  | help
  | other
  | ended (status : Py Int) (files : List (Str × (Fin k → Num)))
  | stored (set : Dataset k)

/-- context.py 320-326, 327-328: the command file is read. -/
def readCommands (s : Site n k) (d : Dict Str JVal) : Py CmdFile :=
  match ArgParse.asText d "commandsFile" with
  | none => .error .attributeError
  | some p =>
    if s.fs.isFile (commandsPath s.cwd p) then .ok (s.commands (commandsPath s.cwd p)) else .error (.app 0)

/-- context.py 180-193 for a command that is not a configuration command: parameters defined, then checked. -/
def context (s : Site n k) (d : Dict Str JVal) : Py (Defined × Checked) :=
  match readCommands s d with
  | .error e => .error e
  | .ok cf =>
    match define s (ArgParse.cliOf d) cf with
    | .error e => .error e
    | .ok v => (checkParams s.fs (params d v)).map fun c => (v, c)

/-- main/__init__.py 42-55: an error of the run as exit status; other exceptions leave the program. -/
def statusOf (e : PyErr) : Py Int :=
  if e.isApp then .ok (if e = .app 3000 then 0 else 1) else .error e

/-- context.py 339-348: the unit of the values written; `unit`: the unit of the parameter. -/
def unitOf (cs : Conversions) (v : JVal) (unit : Str) : Str :=
  if v.truthy then
    match getConversion cs (textOf v) with
    | .error _ => unit
    | .ok c => c.unit
  else unit

/-- context.py 419, writers/__init__.py 118: the aggregation in the name of the data set (a number is not modelled). -/
def nameType : Option (JAggr × JVal) → Option Str
  | none => none
  | some (a, _) =>
    match a.type with
    | .str t => some t
    | _ => none

/-- writers/__init__.py 71-88, 117-120, context.py 338-397: what the command says about its data set. -/
def ncOut (s : Site n k) (d : Dict Str JVal) (v : Defined) (c : Checked) : Py NcOut := do
  let cf ← readCommands s d
  let cs ← getParameter s.known s.parameters cf.base.shortName
  let opt := optValue (ArgParse.cliOf d) cf.base s.tblDir s.geoDir
  let stepUnits ← opt .outputStepUnits
  let validMin ← opt .validMin
  let validMax ← opt .validMax
  let valueFormat ← opt .valueFormat
  let offset ← opt .offset
  let scaleFactor ← opt .scaleFactor
  return {
    path := osJoin c.outDir (ncName (textOf v.namePrefix) (nameType cf.aggr))
    longName := (s.describe v.shortName).1
    unit := unitOf cs cf.applyConversion (s.describe v.shortName).2
    stepUnits := stepUnits
    validMin := validMin
    validMax := validMax
    valueFormat := valueFormat
    offset := offset
    scaleFactor := scaleFactor
    float := s.float
    overflow := s.overflow }

/-- main/__init__.py 42-55 with another format than PCRaster: the writer is a netCDF writer (writers/__init__.py 147-149).
If the run fails after the writer was made and before the data set is, closing it raises (netcdf.py 185-186). A format that
is not known has no method to write the maps (writers/__init__.py 112). -/
def netcdfRun (ne : NumExpr) (x : FileIn n k) (known : Bool) (o : NcOut) : Result k :=
  match (Reader.gribInfo x.file x.reader (infoCmd x.sel)).1 with
  | .error e => .ended (statusOf e) []
  | .ok _ =>
    match x.settings with
    | .error _ => .ended (.error .attributeError) []
    | .ok r =>
      match r.maps ne, x.firstSelected, known with
      | .ok ms, some m0, true =>
        match x.record o r m0 ms with
        | .error e => .ended (statusOf e) []
        | .ok none => .other
        | .ok (some set) => .stored set
      | _, _, _ => .ended (.error .attributeError) []

/-- controller.py 76-95, context.py 61-63: a command with the second input file `input2`. The table of the second grid is
the one made for that file. -/
def pcrasterSecond (ne : NumExpr) (s : Site n k) (v : Defined) (x : FileIn n k) (input2 : Str) :
    Py (List (Str × (Fin k → Num))) :=
  { x with table2 := (s.tables v.mode v.latMap v.lonMap input2).1 }.pcrasterTwo ne (s.second input2).2

/-- The same with another format than PCRaster (see `netcdfRun`). -/
def netcdfSecond (ne : NumExpr) (s : Site n k) (v : Defined) (x : FileIn n k) (input2 : Str) (known : Bool) (o : NcOut) :
    Result k :=
  let x2 : FileIn n k := { x with table2 := (s.tables v.mode v.latMap v.lonMap input2).1 }
  match (Reader.gribInfo x2.file x2.reader (infoCmd x2.sel)).1 with
  | .error e => .ended (statusOf e) []
  | .ok _ =>
    match x2.settingsTwo (s.second input2).2 with
    | .error _ => .ended (.error .attributeError) []
    | .ok r =>
      match r.maps ne, x2.firstSelected, known with
      | .ok ms, some m0, true =>
        match x2.record o r m0 ms with
        | .error e => .ended (statusOf e) []
        | .ok none => .other
        | .ok (some set) => .stored set
      | _, _, _ => .ended (.error .attributeError) []

/-- main/__init__.py 13-55 (`pyg2p_exe`, `execute`). -/
def run (ne : NumExpr) (s : Site n k) (argv : List Str) : Result k :=
  match ArgParse.parseArgs argv with
  | .error _ => .ended (.ok 1) []
  | .ok none => .help
  | .ok (some d) =>
    match (if isConfigCommand (ArgParse.argsOf d) then .error .keyError else context s d) with
    | .error _ => .ended (.ok 1) []
    | .ok (v, c) =>
      if given (ArgParse.asText d "inputFile2") = true then
        if v.format = .str "pcraster".toList then
          match (fileIn s d v c).bind fun x => pcrasterSecond ne s v x ((ArgParse.asText d "inputFile2").getD []) with
          | .error e => .ended (statusOf e) []
          | .ok files => .ended (.ok 0) (files.map fun p => (osJoin c.outDir p.1, p.2))
        else
          match fileIn s d v c, ncOut s d v c with
          | .ok x, .ok o => netcdfSecond ne s v x ((ArgParse.asText d "inputFile2").getD [])
              (decide (v.format = .str "netcdf".toList)) o
          | _, _ => .ended (.error .attributeError) []
      else if v.format = .str "pcraster".toList then
        match (fileIn s d v c).bind fun x => x.pcraster ne with
        | .error e => .ended (statusOf e) []
        | .ok files => .ended (.ok 0) (files.map fun p => (osJoin c.outDir p.1, p.2))
      else
        match fileIn s d v c, ncOut s d v c with
        | .ok x, .ok o => netcdfRun ne x (decide (v.format = .str "netcdf".toList)) o
        | _, _ => .ended (.error .attributeError) []

end CommandRun
end PyG2P
