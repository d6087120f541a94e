import Verif.Model.ApiStore
import Verif.Model.TableCommand

/-! # The programming interface from its dictionary to the maps — src/pyg2p/main/api.py 82-228, 258-315

As `CommandRun` and `TableCommand`, for `Pyg2pApi(ApiContext(dictionary)).execute()`: `d`: the top level of the dictionary;
`cf`: its sections `Parameter`, `OutMaps`, `Aggregation`, with the keys of a command file without `@`. Simplifications as
there; the dictionary has texts, numbers and flags where a command line has them. -/

namespace PyG2P
namespace ApiCommand
open CommandRun
variable {n k : Nat}

/-- `api_conf.get(key)`. -/
def key (d : Dict Str JVal) (name : String) : JVal := (Dict.get? d name.toList).getD .null

/-- api.py 101-122: the options that the sections can also give. -/
def topOf (d : Dict Str JVal) : Api.Top where
  start := Dict.get? d "start".toList
  end_ := Dict.get? d "end".toList
  dataTime := key d "dataTime"
  dataDate := key d "dataDate"
  fmap := key d "fmap"
  ext := key d "ext"
  namePrefix := key d "namePrefix"
  scaleFactor := key d "scaleFactor"
  offset := key d "offset"
  validMin := key d "validMin"
  validMax := key d "validMax"
  valueFormat := key d "valueFormat"
  outputStepUnits := key d "outputStepUnits"
  intertableDir := key d "intertableDir"
  geopotentialDir := key d "geopotentialDir"

/-- api.py 217-223: half weights are not read. -/
def aggrOf (a : Option (JAggr × JVal)) : Py (Option (JAggr × Bool × Bool)) :=
  CommandRun.aggrOf (a.map fun p => (p.1, .null))

/-- api.py 98-228 (`_define_exec_params`); 100-103: three keys have to be there; config.py 65-81 for the paths. -/
def define (s : Site n k) (d : Dict Str JVal) (cf : CmdFile) : Py Defined := do
  if Dict.get? d "inputFile".toList = none ∨ Dict.get? d "start".toList = none ∨ Dict.get? d "end".toList = none then
    throw .keyError
  let cs ← getParameter s.known s.parameters cf.base.shortName
  let conversion ← conversionOf cs cf.applyConversion
  let opt := Api.optValue (topOf d) cf.base s.tblDir s.geoDir
  let namePrefix ← opt .namePrefix
  let fmap ← opt .fmap
  let ext ← opt .ext
  let tstart ← opt .tstart
  let tend ← opt .tend
  let dataTime ← opt .dataTime
  let dataDate ← opt .dataDate
  let aggr ← aggrOf cf.aggr
  let correction ← expandDem s.special s.vars (correctionOf cf)
  let clone ← interpolateOne s.special s.vars cf.cloneMap
  let latMap ← interpolateOne s.special s.vars cf.latMap
  let lonMap ← interpolateOne s.special s.vars cf.lonMap
  return {
    shortName := cf.base.shortName
    conversion := conversion
    correction := correction
    clone := clone
    mode := textOf (cf.mode.getD (.str "grib_nearest".toList))
    latMap := latMap
    lonMap := lonMap
    unitTime := cf.unitTime
    level := cf.level
    tstart := tstart
    tend := tend
    dataTime := dataTime
    dataDate := dataDate
    namePrefix := namePrefix
    fmap := fmap
    ext := ext
    format := .null
    aggr := aggr }

/-- What the checks look at (context.py 82-137); api.py 123: the output folder is always the same. -/
def params (d : Dict Str JVal) (v : Defined) : Params :=
  { CommandRun.params d v with outDir := "./".toList }

/-- api.py 82-96 (`ApiContext.__init__`). -/
def context (s : Site n k) (d : Dict Str JVal) (cf : CmdFile) : Py (Defined × Checked) :=
  match define s d cf with
  | .error e => .error e
  | .ok v => (checkParams s.fs (params d v)).map fun c => (v, c)

/-- a number, or 1. -/
def orOne : JVal → JVal
  | .int z => .int z
  | _ => .int 1

/-- api.py 286-292: the input of the run. The numbers of the maps are not used: they need not be numbers. -/
def fileIn (s : Site n k) (d : Dict Str JVal) (v : Defined) (c : Checked) : Py (FileIn n k) :=
  CommandRun.fileIn s d { v with fmap := orOne v.fmap, ext := orOne v.ext } c

/-- api.py 258-315: the maps returned, tables known. -/
def run (ne : NumExpr) (s : Site n k) (d : Dict Str JVal) (cf : CmdFile) : Py (List (Step × (Fin k → Num))) :=
  match context s d cf with
  | .error e => .error e
  | .ok (v, c) =>
    match fileIn s d v c with
    | .error e => .error e
    | .ok x =>
      if given (ArgParse.asText d "inputFile2") = true then
        let input2 := (ArgParse.asText d "inputFile2").getD []
        { x with table2 := (s.tables v.mode v.latMap v.lonMap input2).1 }.apiMapsTwo ne (s.second input2).2
      else x.apiMaps ne

/-- api.py 108-110, 129-136: as `lookupOf`. Option 110 is on unless it is switched off; where the configuration has no
folder of tables, permissions are checked on the folder of the run. -/
def lookupOf (s : Site n k) (ts : TableSite k) (splits : Option Nat) (d : Dict Str JVal) (cf : CmdFile) (v : Defined)
    (input file : Str) : Lookup k :=
  let dir := tableDir (Api.optValue (topOf d) cf.base s.tblDir s.geoDir .intertableDir)
  (ts.method ((Dict.get? d "interpolationParallel".toList).getD (.bool true)).truthy v.mode v.latMap v.lonMap file).lookup
    splits (ts.rows v.latMap) {
      create := ArgParse.asFlag d "createIntertable"
      write := checkWrite ts.isDir ts.canWrite (if s.tblDir = [] then dir else some s.tblDir)
      userDir := dir
      globalDir := ts.globalDir
      source := normalizeFilename (baseName input)
      targetSize := k
      suffix := (tableSuffix v.mode).getD []
      gridId := ts.gridId file
      target := ts.target v.latMap v.lonMap }

/-- api.py 258-315 on the tables `w`: the maps returned or the error, and the tables left. -/
def runIn (le : Str → Str → Bool) (ne : NumExpr) (missing : PyErr) (s : Site n k) (ts : TableSite k) (splits : Option Nat)
    (w : Store (Table k)) (d : Dict Str JVal) (cf : CmdFile) : Outcome k (Step × (Fin k → Num)) :=
  match context s d cf with
  | .error e => ⟨[], some e, w⟩
  | .ok (v, c) =>
    match fileIn s d v c with
    | .error e => ⟨[], some e, w⟩
    | .ok x =>
      let input := (ArgParse.asText d "inputFile").getD []
      let input2 := (ArgParse.asText d "inputFile2").getD []
      if given (ArgParse.asText d "inputFile2") = true then
        x.apiMapsTwoIn le ne missing w (lookupOf s ts splits d cf v input input) (lookupOf s ts splits d cf v input input2)
          (s.second input2).2
      else
        x.apiMapsIn le ne missing w (lookupOf s ts splits d cf v input input)

end ApiCommand
end PyG2P
