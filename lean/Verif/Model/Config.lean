import Verif.Model.UserConf

/-! # Configuration files — src/pyg2p/main/config.py 84-358 -/

namespace PyG2P

/-! ## Files with a global and a user part (config.py 84-154) -/

/-- The content of a JSON configuration file: an object, some text (what `dump` writes for no entries), or
text that is not JSON. -/
inductive JFile (V : Type) where
  | obj (d : Dict Str V)
  | text (s : Str)
  | invalid

/-- exceptions.py (`JSON_ERROR`). -/
def JSON_ERROR : Nat := 8200

/-- A configuration in memory (`vars`, `user_vars`) with its user file on disk. -/
structure Conf (V : Type) where
  vars : Dict Str V
  user : Dict Str V
  disk : Option (JFile V)

namespace Conf
variable {V : Type}

/-- config.py 142-145 (`dump`): the entries sorted by key; no entries are written as the JSON text
`"{}"`. -/
def dumpFile (le : Str → Str → Bool) (d : Dict Str V) : JFile V :=
  if d = [] then .text "{}".toList else .obj (d.mergeSort fun a b => le a.1 b.1)

/-- config.py 142-145 on the configuration. -/
def dump (le : Str → Str → Bool) (c : Conf V) : Conf V := { c with disk := some (dumpFile le c.user) }

/-- config.py 131-140 (`_load`) and 128-129: the entries of a user file; `update` with a text raises
`ValueError`. -/
def loadFile : JFile V → Py (Dict Str V)
  | .obj d => .ok d
  | .text _ => .error .valueError
  | .invalid => .error (.app JSON_ERROR)

/-- config.py 92-129 (`__init__`, `merge_with_user_conf`): `template` is the description with `init_dict`. -/
def init (le : Str → Str → Bool) (global template : Dict Str V) (disk : Option (JFile V)) : Py (Conf V) :=
  match disk with
  | none => .ok ⟨Dict.update global template, template, some (dumpFile le template)⟩
  | some f => do
    let u ← loadFile f
    .ok ⟨Dict.update global u, u, some f⟩

end Conf

/-! ## Parameters (config.py 192-221) -/

/-- A conversion of a parameter; `cutOff`: the attribute `@cutOffNegative`. -/
structure ConvEntry where
  id : Str
  function : Str
  unit : Str
  cutOff : JVal
  deriving DecidableEq

/-- The `Conversion` attribute: absent, one object, or a list. -/
inductive Conversions where
  | none
  | one (c : ConvEntry)
  | many (cs : List ConvEntry)

/-- config.py 207-211 (`get`): an empty entry counts as missing. -/
def getParameter {V : Type} (truthy : V → Bool) (vars : Dict Str V) (name : Str) : Py V :=
  match Dict.get? vars name with
  | some p => if truthy p then .ok p else .error (.app 1100)
  | none => .error (.app 1100)

/-- config.py 213-221 (`get_conversion`). -/
def getConversion (c : Conversions) (id : Str) : Py ConvEntry :=
  match c with
  | .many cs =>
    match cs.find? (fun x => decide (x.id = id)) with
    | some x => .ok x
    | none => .error (.app 1200)
  | .one x => if x.id = id then .ok x else .error (.app 1200)
  | .none => .error (.app 1200)

/-! ## Geopotentials (config.py 224-269) -/

/-- exceptions.py (`EXISTING_GEOPOTENTIAL`, `NOT_EXISTING_PATH`, `NO_WRITE_PERMISSIONS`, `NO_GEOPOTENTIAL`,
`NO_FILE_GEOPOTENTIAL`). -/
def EXISTING_GEOPOTENTIAL : Nat := 8300
def NOT_EXISTING_PATH : Nat := 8600
def NO_WRITE_PERMISSIONS : Nat := 8500
def NO_GEOPOTENTIAL : Nat := 4000
def NO_FILE_GEOPOTENTIAL : Nat := 4200

/-- `os.path.join(folder, name)` for a relative `name`. -/
def joinPath (folder name : Str) : Str :=
  if folder = [] then name
  else if folder.getLast? = some '/' then folder ++ name else folder ++ '/' :: name

/-- config.py 147-154 (`check_write`). -/
def checkWrite (isDir canWrite : Str → Bool) (dataPath : Option Str) : Py Unit :=
  match dataPath with
  | none => .error (.app NO_VAR_DEFINED)
  | some d =>
    if d = [] then .error (.app NO_VAR_DEFINED)
    else if isDir d = false then .error (.app NOT_EXISTING_PATH)
    else if canWrite d = false then .error (.app NO_WRITE_PERMISSIONS)
    else .ok ()

/-- config.py 231-244 (`add`): identifier and name of the file; `writable`: the outcome of `check_write` and
of the copy. `vars` is not changed. -/
def geoAdd (le : Str → Str → Bool) (c : Conf Str) (id name : Str) (writable : Py Unit) :
    Py (Conf Str) :=
  if id ∈ Dict.keys c.vars then .error (.app EXISTING_GEOPOTENTIAL)
  else do
    writable
    .ok (Conf.dump le { c with user := Dict.set c.user id name })

/-- config.py 246-251 (`remove`): the first entry with that file name. -/
def geoRemove (le : Str → Str → Bool) (c : Conf Str) (name : Str) : Conf Str :=
  match c.user.find? (fun p => decide (p.2 = name)) with
  | some p => Conf.dump le { c with user := Dict.erase c.user p.1 }
  | none => c

/-- One operation on the registry of geopotentials; a refused one leaves it as it was. -/
inductive GeoOp where
  | add (id name : Str) (writable : Py Unit)
  | remove (name : Str)

/-- One operation. -/
def geoStep (le : Str → Str → Bool) (c : Conf Str) : GeoOp → Conf Str
  | .add id name w => match geoAdd le c id name w with
    | .ok c' => c'
    | .error _ => c
  | .remove name => geoRemove le c name

/-- config.py 258-259: the path in one folder, skipped when the folder is not set. -/
def folderPath (name : Str) : Option Str → Option Str
  | none => none
  | some d => if d = [] then none else some (joinPath d name)

/-- config.py 253-269 (`get_filepath`): `folders` are the `-G` folder, the user folder and the global one. -/
def geoFilepath (isFile : Str → Bool) (vars : Dict Str Str) (folders : List (Option Str)) (id : Str) :
    Py Str :=
  match Dict.get? vars id with
  | none => .error (.app NO_GEOPOTENTIAL)
  | some name =>
    if name = [] then .error (.app NO_GEOPOTENTIAL)
    else
      match (folders.filterMap (folderPath name)).find? isFile with
      | some p => .ok p
      | none => .error (.app NO_FILE_GEOPOTENTIAL)

/-- context.py 139-143 (`geo_file`): a file given with the input wins. -/
def geoFile (isFile : Str → Bool) (vars : Dict Str Str) (inputFileWithGeo : Option Str)
    (folders : List (Option Str)) (id : Str) : Py Str :=
  if given inputFileWithGeo then .ok (inputFileWithGeo.getD []) else geoFilepath isFile vars folders id

/-! ## Download (config.py 311-332) -/

/-- A local folder: file names with contents. -/
abbrev Folder := Dict Str Str

/-- What the server does for one file: the whole content, or an error after a part of it. -/
inductive Transfer where
  | whole (content : Str)
  | broken (part : Str)

/-- config.py 321-330: one remote file; the local file is created before the transfer. -/
def downloadOne (fs : Folder) (name : Str) (t : Transfer) : Folder × Bool :=
  if name = ".".toList ∨ name = "..".toList ∨ name = "readme.txt".toList then (fs, true)
  else if name ∈ Dict.keys fs then (fs, true)
  else match t with
    | .whole c => (Dict.set fs name c, true)
    | .broken p => (Dict.set fs name p, false)

/-- config.py 311-332 (`download_data`): the remote files in order, until an error. -/
def download : Folder → List (Str × Transfer) → Folder × Bool
  | fs, [] => (fs, true)
  | fs, (name, t) :: r =>
    match downloadOne fs name t with
    | (fs', true) => download fs' r
    | (fs', false) => (fs', false)

/-! ## Checking the configuration (config.py 334-358) -/

/-- An entry of `intertables.json`: an object with a file name, or a text (the description). -/
inductive TblEntry where
  | table (filename : Str)
  | text (s : Str)
  deriving DecidableEq

/-- config.py 337: `[i['filename'] for i in vars.values()]`; a text cannot be indexed with a string. -/
def usedTables (vars : Dict Str TblEntry) : Py (List Str) :=
  vars.mapM fun p => match p.2 with
    | .table f => .ok f
    | .text _ => .error .typeError

/-- config.py 352-354: is the file of a user entry in the user folder? -/
def tableExists (isFile : Str → Bool) (dataPath : Str) (p : Str × TblEntry) : Py Bool :=
  match p.2 with
  | .table f => .ok (isFile (joinPath dataPath f))
  | .text _ => .error .typeError

/-- config.py 334-358 (`check_conf`): entries of the user whose file is gone are removed; `listing`: the
outcome of listing the four folders. `dataPath` is the user folder. -/
def checkConf (le : Str → Str → Bool) (isFile : Str → Bool) (dataPath : Str) (c : Conf TblEntry)
    (listing : Py Unit) : Py (Conf TblEntry) := do
  let _ ← usedTables c.vars
  listing
  let keep ← c.user.filterM (tableExists isFile dataPath)
  .ok (Conf.dump le { c with user := keep })

end PyG2P
