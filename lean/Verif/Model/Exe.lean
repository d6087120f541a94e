import Verif.Model.Context

/-! # Program entry — src/pyg2p/main/__init__.py, controller.py 83-148, context.py 180-253

The work done by a phase is abstracted to its outcome: `none`, or the exception it raises. -/

namespace PyG2P

/-- Is the exception an `ApplicationException`? -/
def PyErr.isApp : PyErr → Bool
  | .app _ => true
  | .appNoCode => true
  | _ => false

/-! ## Context (context.py 180-253) -/

/-- The command-line arguments that decide what is done: `-c`, `-i`, `-g`, `-W`, `-K`. -/
structure Args where
  commandsFile : Option Str
  inputFile : Option Str
  addGeopotential : Option Str
  download : Option Str
  checkConf : Bool

/-- context.py 253: `self.to_add_geopotential or self.to_download_conf or self.to_check_conf`. The
attribute `to_add_geopotential` keeps the value `False` of context.py 28: line 243 sets
`_to_add_geopotential`. -/
def isConfigCommand (a : Args) : Bool := false || given a.download || a.checkConf

/-- context.py 180-193 (`ExecutionContext.__init__`). `define`: the outcome of `_define_exec_params` after
the commands file name was looked at. For a configuration command it is not run, so that the map names
looked up by the checks (context.py 97) are not there: `KeyError`. -/
def contextInit (fs : Fs) (a : Args) (define : Py Params) : Py Bool :=
  if isConfigCommand a then
    if given a.inputFile = false then .error (.app 1001)
    else if fs.isFile (a.inputFile.getD []) = false then .error (.app 1000)
    else .error .keyError
  else
    match a.commandsFile with
    | none => .error .attributeError
    | some _ =>
      match define with
      | .error e => .error e
      | .ok p =>
        match checkParams fs p with
        | .error e => .error e
        | .ok _ => .ok false

/-! ## Controller (controller.py 83-148) -/

/-- Outcomes of the phases of `Controller.execute`, in order: opening the reader (34), reading the file
information (35), creating the writer (36), selecting messages (89), opening and reading the second file
(91-95, when there is one), manipulation (97-131), and writing (136): for netCDF all maps are interpolated
and the data set created (`createDataset`, writers/__init__.py 43-86), then the rest. -/
structure Phases where
  netcdf : Bool
  openReader : Option PyErr
  info : Option PyErr
  newWriter : Option PyErr
  select : Option PyErr
  secondFile : Bool
  openSecond : Option PyErr
  selectSecond : Option PyErr
  manipulate : Option PyErr
  createDataset : Option PyErr
  write : Option PyErr

/-- What a controller holds: readers, and the writer with its open data set. -/
structure Held where
  reader : Bool
  reader2 : Bool
  writer : Bool
  dataset : Bool
  deriving DecidableEq

/-- controller.py 83-138 (`execute`): what is held when it ends, and how it ends. -/
def execCtrl (p : Phases) : Held × Option PyErr :=
  match p.openReader with
  | some e => (⟨false, false, false, false⟩, some e)
  | none =>
  match p.info with
  | some e => (⟨true, false, false, false⟩, some e)
  | none =>
  match p.newWriter with
  | some e => (⟨true, false, false, false⟩, some e)
  | none =>
  match p.select with
  | some e => (⟨true, false, true, false⟩, some e)
  | none =>
  match (if p.secondFile then p.openSecond else none) with
  | some e => (⟨true, false, true, false⟩, some e)
  | none =>
  match (if p.secondFile then p.selectSecond else none) with
  | some e => (⟨true, p.secondFile, true, false⟩, some e)
  | none =>
  match p.manipulate with
  | some e => (⟨true, p.secondFile, true, false⟩, some e)
  | none =>
  match (if p.netcdf then p.createDataset else none) with
  | some e => (⟨true, p.secondFile, true, false⟩, some e)
  | none => (⟨true, p.secondFile, true, p.netcdf⟩, p.write)

/-- controller.py 140-148 (`close`), writers/__init__.py 135-136, writers/netcdf.py 185-186: a netCDF
writer whose data set was never created has `nf = None`, and `None.close()` raises. -/
def closeCtrl (netcdf : Bool) (h : Held) : Held × Option PyErr :=
  if h.writer && netcdf && !h.dataset then (⟨false, false, true, false⟩, some .attributeError)
  else (⟨false, false, false, false⟩, none)

/-- main/__init__.py 42-55 (`execute`); `ctor`: the outcome of `Controller(exc_ctx)`. The result is the
return value or the exception that leaves the function; `closeCtrl` on `None` raises. -/
def executeMain (ctor : Option PyErr) (p : Phases) : Held × Py Int :=
  match ctor with
  | some _ => (⟨false, false, false, false⟩, .error .attributeError)
  | none =>
    let (h, out) := execCtrl p
    let (h', c) := closeCtrl p.netcdf h
    match c with
    | some e => (h', .error e)
    | none =>
      match out with
      | none => (h', .ok 0)
      | some e =>
        if e.isApp then (h', .ok (if e = .app 3000 then 0 else 1)) else (h', .error e)

/-- main/__init__.py 13-39 (`pyg2p_exe`); `config`: the outcome of `config_command`. The second component
tells whether a configuration command was run. -/
def exe (fs : Fs) (a : Args) (define : Py Params) (config : Option PyErr) (ctor : Option PyErr)
    (p : Phases) : Held × Bool × Py Int :=
  match contextInit fs a define with
  | .error _ => (⟨false, false, false, false⟩, false, .ok 1)
  | .ok true =>
    match config with
    | none => (⟨false, false, false, false⟩, true, .ok 0)
    | some e =>
      (⟨false, false, false, false⟩, true, if e.isApp then .ok 1 else .error e)
  | .ok false =>
    let r := executeMain ctor p
    (r.1, false, r.2)

end PyG2P
