import Verif.Model.CommandRun
import Verif.Model.TableRun

/-! # Commands and their interpolation tables — main/__init__.py 13-55, context.py 222-252, 368-370,
interpolation/__init__.py 30-139, writers/__init__.py 43-109

As `CommandRun`, but the tables are looked up, created and registered as the program does (`StoreRun`). Simplifications:
one grid for each input file; the folder of tables asked for is there. -/

namespace PyG2P
variable {n m k : Nat}

/-- What a command finds about tables: the method (by option `-X`, mode, latitudes, longitudes and input file), `@num_of_splits` in
a command file, rows of the target (by latitudes), grid identifier of an input file, identifier of the target, global
folder, and folders that exist or can be written. -/
structure TableSite (k : Nat) where
  method : Bool → Str → Str → Str → Str → Method k
  splits : Str → Option Nat
  rows : Str → List (List (Fin k))
  gridId : Str → Str
  target : Str → Str → Str
  globalDir : Option Str
  isDir : Str → Bool
  canWrite : Str → Bool

/-- writers/__init__.py 43-70: the maps for the data set, tables looked up or created for every map. -/
def RunIn.mapsIn (le : Str → Str → Bool) (ne : NumExpr) (w : Store (Table k)) (q q2 : Lookup k) (r : RunIn n m k) :
    Outcome k (Int × Arr k) :=
  match r.fields ne with
  | .error e => ⟨[], some e, w⟩
  | .ok (values, change) =>
    r.mapLoop le q q2 (fun t a => (t, a)) w ((gridLoop change false values).map fun p => (p.1.endStep, p.2.1, p.2.2))

namespace CommandRun

/-- `os.path.basename` (files.py 69-70). -/
def baseName (p : Str) : Str := (p.reverse.takeWhile (· ≠ '/')).reverse

/-- context.py 247-250, 368-370: the user's folder of tables; an empty one is none. -/
def tableDir (v : Py JVal) : Option Str :=
  match v with
  | .ok (.str p) => if p = [] then none else some p
  | _ => none

/-- interpolation/__init__.py 30-58, 68-83, config.py 147-154: what is needed to look for the table of the grid of
file `file`, in a run on `input`. The folder whose permissions are checked is the one in the configuration. -/
def lookupOf (s : Site n k) (ts : TableSite k) (d : Dict Str JVal) (v : Defined) (input file : Str) : Py (Lookup k) := do
  let cf ← readCommands s d
  return (ts.method (ArgParse.asFlag d "interpolationParallel") v.mode v.latMap v.lonMap file).lookup
    (ts.splits (commandsPath s.cwd ((ArgParse.asText d "commandsFile").getD []))) (ts.rows v.latMap) {
      create := ArgParse.asFlag d "createIntertable"
      write := checkWrite ts.isDir ts.canWrite (some s.tblDir)
      userDir := tableDir (optValue (ArgParse.cliOf d) cf.base s.tblDir s.geoDir .intertableDir)
      globalDir := ts.globalDir
      source := normalizeFilename (baseName input)
      targetSize := k
      suffix := (tableSuffix v.mode).getD []
      gridId := ts.gridId file
      target := ts.target v.latMap v.lonMap }

/-- main/__init__.py 42-55 with PCRaster output: exit status, maps written (also by a run that fails), tables. -/
def endPcr (outDir : Str) (o : Outcome k (Str × (Fin k → Num))) : Result k × Store (Table k) :=
  (.ended (match o.error with
    | none => .ok 0
    | some e => statusOf e) (o.maps.map fun p => (osJoin outDir p.1, p.2)), o.store)

/-- The same from the settings of the run. -/
def pcrIn (le : Str → Str → Bool) (ne : NumExpr) (w : Store (Table k)) (q q2 : Lookup k) (outDir : Str)
    (r : Py (RunIn n m k)) : Result k × Store (Table k) :=
  match r with
  | .error e => (.ended (statusOf e) [], w)
  | .ok r => endPcr outDir (r.pcrasterIn le ne w q q2)

/-- The same with another format (see `netcdfRun`). -/
def ncIn (le : Str → Str → Bool) (ne : NumExpr) (w : Store (Table k)) (q q2 : Lookup k) (x : FileIn n k)
    (known : Bool) (o : NcOut) (r : Py (RunIn n m k)) : Result k × Store (Table k) :=
  match (Reader.gribInfo x.file x.reader (infoCmd x.sel)).1 with
  | .error e => (.ended (statusOf e) [], w)
  | .ok _ =>
    match r, known with
    | .ok r, true =>
      let p := r.mapsIn le ne w q q2
      match p.error, x.firstSelected with
      | none, some m0 =>
        match x.record o r m0 p.maps with
        | .error e => (.ended (statusOf e) [], p.store)
        | .ok none => (.other, p.store)
        | .ok (some set) => (.stored set, p.store)
      | _, _ => (.ended (.error .attributeError) [], p.store)
    | _, _ => (.ended (.error .attributeError) [], w)

/-- main/__init__.py 13-55 (`pyg2p_exe`, `execute`) on the tables `w`; `le`: order of the registry's keys. -/
def runIn (le : Str → Str → Bool) (ne : NumExpr) (s : Site n k) (ts : TableSite k) (w : Store (Table k))
    (argv : List Str) : Result k × Store (Table k) :=
  match ArgParse.parseArgs argv with
  | .error _ => (.ended (.ok 1) [], w)
  | .ok none => (.help, w)
  | .ok (some d) =>
    match (if isConfigCommand (ArgParse.argsOf d) then .error .keyError else context s d) with
    | .error _ => (.ended (.ok 1) [], w)
    | .ok (v, c) =>
      let input := (ArgParse.asText d "inputFile").getD []
      let input2 := (ArgParse.asText d "inputFile2").getD []
      let two := given (ArgParse.asText d "inputFile2")
      match fileIn s d v c, lookupOf s ts d v input input, lookupOf s ts d v input input2 with
      | .ok x, .ok q, .ok q2 =>
        if v.format = .str "pcraster".toList then
          if two = true then pcrIn le ne w q q2 c.outDir (x.settingsTwo (s.second input2).2)
          else pcrIn le ne w q q c.outDir x.settings
        else
          match ncOut s d v c with
          | .error _ => (.ended (.error .attributeError) [], w)
          | .ok o =>
            if two = true then
              ncIn le ne w q q2 x (decide (v.format = .str "netcdf".toList)) o (x.settingsTwo (s.second input2).2)
            else ncIn le ne w q q x (decide (v.format = .str "netcdf".toList)) o x.settings
      | .error e, _, _ =>
        (.ended (if v.format = .str "pcraster".toList then statusOf e else .error .attributeError) [], w)
      | _, .error e, _ => (.ended (statusOf e) [], w)
      | _, _, .error e => (.ended (statusOf e) [], w)

end CommandRun
end PyG2P
