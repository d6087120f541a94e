import Verif.Model.Config
import Verif.Model.Strings
import Verif.Model.Messages

/-! # Interpolation tables — src/pyg2p/main/interpolation/__init__.py 18-139, 225-384,
src/pyg2p/main/interpolation/latlong.py, src/pyg2p/main/readers/pcr.py 41-42, readers/netcdf.py 73-76

A file is a folder and a name; folders are given in normalised form (`os.path.normpath` is the identity on
them) and registered names contain no `/`. The content of a table is left abstract (`τ`): building a table and
applying it are modelled in `TableApply`, `GribLib` and `ScipyLib`. Logging and the debug switches (both
`False`, scipy_interpolation_lib.py 26-27) are dropped. -/

namespace PyG2P

/-! ## Identifiers of the target maps -/

namespace Str

/-- `int(x)`: truncation towards zero. -/
def truncInt (x : ℚ) : Int := if x < 0 then -⌊-x⌋ else ⌊x⌋

/-- two digits of `k % 100`. -/
def twoDigits (k : Nat) : Str := [digit (k / 10), digit k]

/-- `f'{x:.2f}'`. Negative zero is not modelled, except that a negative number rounded to zero keeps its
sign. -/
def fmt2 (x : ℚ) : Str :=
  let k := (roundHalfEven (|x| * 100)).toNat
  (if x < 0 then ['-'] else []) ++ ofNat (k / 100) ++ '.' :: twoDigits k

end Str

/-- The geometry and the range of values of a map (readers/pcr.py 19-31, readers/netcdf.py 25-34). -/
structure MapGeo where
  origX : ℚ
  origY : ℚ
  pxlW : ℚ
  pxlH : ℚ
  min : ℚ
  max : ℚ
  deriving DecidableEq

/-- readers/pcr.py 41-42 (`identifier`); readers/netcdf.py 74 and 75. -/
def MapGeo.identifier (g : MapGeo) : Str :=
  Str.ofInt (Str.truncInt g.origX) ++ '_' :: (Str.ofInt (Str.truncInt g.origY) ++ '_' ::
  (Str.ofInt (Str.truncInt g.pxlW) ++ '_' :: (Str.ofInt (Str.truncInt g.pxlH) ++ '_' ::
  (Str.fmt2 g.min ++ '_' :: Str.fmt2 g.max))))

/-- latlong.py 35, readers/netcdf.py 76: the identifier of the target coordinates. -/
def targetId (lat lon : MapGeo) : Str := lat.identifier ++ '_' :: lon.identifier

/-- interpolation/__init__.py 23-27 (`suffixes`). -/
def tableSuffix : Str → Option Str := fun mode =>
  Dict.get? ([("grib_nearest", "grib_nearest"), ("grib_invdist", "grib_invdist"), ("nearest", "scipy_nearest"),
    ("invdist", "scipy_invdist"), ("adw", "scipy_adw"), ("cdd", "scipy_cdd"), ("bilinear", "scipy_bilinear"),
    ("triangulation", "scipy_triangulation"), ("bilinear_delaunay", "scipy_bilinear_delaunay")].map
      fun p => (p.1.toList, p.2.toList)) mode

/-- interpolation/__init__.py 69: the identifier of a table. -/
def tableId (gridId target suffix : Str) : Str :=
  'I' :: ((gridId.map fun c => if c = '$' then '_' else c) ++ '_' :: (target ++ suffix))

/-! ## Names of table files -/

/-- interpolation/__init__.py 28, 46-49, 75-81: the name of table number `i`. -/
def tableName (source : Str) (targetSize : Nat) (suffix : Str) (i : Nat) : Str :=
  "tbl".toList ++ (if i = 0 then [] else '_' :: Str.ofNat i) ++
    ('_' :: (source ++ '_' :: (Str.ofNat targetSize ++ '_' :: (suffix ++ ".npy.gz".toList))))

/-- interpolation/__init__.py 78-82: the loop that looks for a free name, from number `i` on; `none` if it
does not end. -/
def freeName (taken : Nat → Bool) (i : Nat) : Option Nat :=
  if taken i then freeName taken (i + 1) else some i
partial_fixpoint

/-- `name.endswith('.gz')`. -/
def isGz (name : Str) : Bool := ".gz".toList.isSuffixOf name

/-- `np.save(name, ...)`: the name of the file written (numpy appends `.npy`). -/
def npyName (name : Str) : Str := if ".npy".toList.isSuffixOf name then name else name ++ ".npy".toList

/-! ## The program and its surroundings -/

/-- Folder and name of a file. -/
abbrev Path := Str × Str

/-- A table file: its content, or damaged (written by an interrupted run). -/
inductive TFile (τ : Type) where
  | whole (t : τ)
  | damaged
  deriving DecidableEq

/-- The tables on disk, the registry (in memory and on disk), and the tables loaded by the process
(`_LOADED_INTERTABLES`, a class attribute). -/
structure Store (τ : Type) where
  conf : Conf TblEntry
  files : Dict Path (TFile τ)
  cache : Dict Path τ

/-- What a run is started with: creation of tables allowed; the outcome of `check_write` (config.py 147-154);
user and global folder of tables; normalised source file name, size of the target grid, suffix of the mode;
identifiers of the source and the target grid. -/
structure TblRun where
  create : Bool
  write : Py Unit
  userDir : Option Str
  globalDir : Option Str
  source : Str
  targetSize : Nat
  suffix : Str
  gridId : Str
  target : Str

/-- exceptions.py (`NO_INTERTABLE_CREATED`). -/
def NO_INTERTABLE_CREATED : Nat := 8100

namespace TblRun

/-- The table identifier of a run. -/
def id (r : TblRun) : Str := tableId r.gridId r.target r.suffix

/-- The name of new table number `i`. -/
def name (r : TblRun) (i : Nat) : Str := tableName r.source r.targetSize r.suffix i

end TblRun

/-- `os.path.join(d, name)` with `d` maybe `None` (`TypeError`). -/
def inDir (d : Option Str) (name : Str) : Py Path :=
  match d with
  | none => .error .typeError
  | some d => .ok (d, name)

namespace Store
variable {τ : Type}

/-- `files.exists` (files.py 27-28). -/
def ex (w : Store τ) (p : Path) : Bool := decide (p ∈ Dict.keys w.files)

/-- the path with `.gz` appended. -/
def gz (p : Path) : Path := (p.1, p.2 ++ ".gz".toList)

/-- exists plain or compressed. -/
def exAny (w : Store τ) (p : Path) : Bool := w.ex p || w.ex (gz p)

/-- interpolation/__init__.py 70-83: a new table. A loop without end would be an error here; `C55` shows that
it ends. -/
def newPath (w : Store τ) (r : TblRun) : Py Path :=
  if r.create = false then .error (.app NO_INTERTABLE_CREATED)
  else do
    r.write
    let d ← inDir r.userDir []
    match freeName (fun i => w.ex (d.1, r.name i)) 0 with
    | some i => .ok (d.1, r.name i)
    | none => .error .nameError

/-- interpolation/__init__.py 94-100: a registered table whose file is missing. -/
def recreatePath (r : TblRun) (filename : Str) : Py Path :=
  if r.create = false then .error (.app NO_INTERTABLE_CREATED)
  else do
    r.write
    inDir r.userDir (if isGz filename then filename else filename ++ ".gz".toList)

/-- interpolation/__init__.py 91-100. -/
def globalPath (w : Store τ) (r : TblRun) (filename : Str) : Py Path := do
  let g ← inDir r.globalDir filename
  if w.exAny g then .ok g else recreatePath r filename

/-- interpolation/__init__.py 86-101. -/
def registeredPath (w : Store τ) (r : TblRun) (filename : Str) : Py Path :=
  match r.userDir with
  | none => w.globalPath r filename
  | some d => if d ≠ [] ∧ w.exAny (d, filename) then .ok (d, filename) else w.globalPath r filename

/-- interpolation/__init__.py 68-101 (`_intertable_filename`). -/
def tablePath (w : Store τ) (r : TblRun) : Py Path :=
  match Dict.get? w.conf.vars r.id with
  | none => w.newPath r
  | some (.text _) => .error .typeError
  | some (.table f) => w.registeredPath r f

/-- `np.load`, with a damaged file (its error is one of several: `ValueError` here). -/
def load (w : Store τ) (p : Path) : Py τ :=
  match Dict.get? w.files p with
  | none => .error .fileNotFound
  | some (.whole t) => .ok t
  | some .damaged => .error .valueError

/-- interpolation/__init__.py 106-120. -/
def loadAny (w : Store τ) (p : Path) : Py τ :=
  if isGz p.2 then w.load p
  else if w.ex p then w.load p
  else if w.ex (gz p) then w.load (gz p)
  else .error (.app NO_INTERTABLE_CREATED)

/-- interpolation/__init__.py 103-124 (`_read_intertable`): the table and the state afterwards. -/
def read (w : Store τ) (p : Path) : Py τ × Store τ :=
  match Dict.get? w.cache p with
  | some t => (.ok t, w)
  | none =>
    match w.loadAny p with
    | .ok t => (.ok t, { w with cache := Dict.set w.cache p t })
    | .error e => (.error e, w)

/-- interpolation/__init__.py 251-258, 292-298, 352-358: the file is written, under `np.save`'s name if not
compressed. -/
def save (w : Store τ) (p : Path) (t : τ) : Store τ :=
  { w with files := Dict.set w.files (p.1, if isGz p.2 then p.2 else npyName p.2) (.whole t) }

/-- interpolation/__init__.py 373-385 (`update_intertable_conf`); of an entry only the file name is
modelled. -/
def register (le : Str → Str → Bool) (w : Store τ) (r : TblRun) (p : Path) (t : τ) : Store τ :=
  { w with
    cache := Dict.set w.cache p t
    conf := Conf.dump le { w.conf with
      vars := Dict.set w.conf.vars r.id (.table p.2)
      user := Dict.set w.conf.user r.id (.table p.2) } }

/-- The table is saved and registered. -/
def created (le : Str → Str → Bool) (w : Store τ) (r : TblRun) (p : Path) (t : τ) : Store τ :=
  (w.save p t).register le r p t

/-- interpolation/__init__.py 164-262 (`interpolate_scipy`), from the lookup of the path on; `build`: computing
a new table (scipy_interpolation_lib), or the error. -/
def scipyAt (le : Str → Str → Bool) (w : Store τ) (r : TblRun) (build : Py τ) (p : Path) : Py τ × Store τ :=
  if w.exAny p then w.read p
  else if r.create then
    match r.write with
    | .error e => (.error e, w)
    | .ok _ =>
      match build with
      | .error e => (.error e, w)
      | .ok t => (.ok t, w.created le r p t)
  else (.error (.app NO_INTERTABLE_CREATED), w)

/-- interpolation/__init__.py 164-262 (`interpolate_scipy`): the table used, and the state afterwards. -/
def scipy (le : Str → Str → Bool) (w : Store τ) (r : TblRun) (build : Py τ) : Py τ × Store τ :=
  match w.tablePath r with
  | .error e => (.error e, w)
  | .ok p => w.scipyAt le r build p

/-- `grib_nearest` calls `check_write` once more (288), `grib_inverse_distance` does not. -/
def writeCheck (checks : Bool) (r : TblRun) : Py Unit := if checks then r.write else .ok ()

/-- interpolation/__init__.py 275-311, 319-368, without a message (as the writers call it). When there is no
file under the name, the function calls itself with the message kept for that purpose; that call creates the table
(`build`) and registers it; the outer call reads it, or fails with code 6000 when there still is no such file. -/
def gribAt (le : Str → Str → Bool) (checks : Bool) (w : Store τ) (r : TblRun) (build : Py τ) (p : Path) :
    Py τ × Store τ :=
  if w.ex p then w.read p
  else if r.create then
    match writeCheck checks r with
    | .error e => (.error e, w)
    | .ok _ =>
      match build with
      | .error e => (.error e, w)
      | .ok t =>
        if (w.created le r p t).ex p then (w.created le r p t).read p
        else (.error (.app 6000), w.created le r p t)
  else (.error (.app NO_INTERTABLE_CREATED), w)

/-- interpolation/__init__.py 270-311, 315-368 (`grib_nearest`, `grib_inverse_distance`): the table used, and the
state afterwards. -/
def grib (le : Str → Str → Bool) (checks : Bool) (w : Store τ) (r : TblRun) (build : Py τ) :
    Py τ × Store τ :=
  match w.tablePath r with
  | .error e => (.error e, w)
  | .ok p => w.gribAt le checks r build p

/-- A new process: nothing loaded, the registry read from its files (config.py 92-129; `global`, `template`:
the global registry and the description). -/
def restart (le : Str → Str → Bool) (global template : Dict Str TblEntry) (w : Store τ) : Py (Store τ) := do
  let c ← Conf.init le global template w.conf.disk
  .ok { w with conf := c, cache := [] }

/-- What can happen to the tables: a run with either kind of method (a new process is started by `restart`). -/
inductive Act (τ : Type) where
  | scipy (r : TblRun) (build : Py τ)
  | grib (checks : Bool) (r : TblRun) (build : Py τ)
  | restart

/-- The state after one action; a process that cannot read its configuration does nothing. -/
def act (le : Str → Str → Bool) (global template : Dict Str TblEntry) (w : Store τ) : Act τ → Store τ
  | .scipy r b => (w.scipy le r b).2
  | .grib c r b => (w.grib le c r b).2
  | .restart => match w.restart le global template with
    | .ok w' => w'
    | .error _ => w

/-- The state after a history. -/
def after (le : Str → Str → Bool) (global template : Dict Str TblEntry) (w : Store τ) (h : List (Act τ)) :
    Store τ := h.foldl (act le global template) w

/-- Where a run that creates a table can be interrupted. -/
inductive CrashPoint where
  /-- before the file is opened -/
  | before
  /-- while the table is written: a damaged file stays (251-258, 292-298, 352-358) -/
  | saving
  /-- after the table is written, before the registry is -/
  | saved
  /-- while the registry is written: the file was truncated by `open(..., 'w')` (config.py 142-145) -/
  | dumping

/-- What an interrupted creation of table `t` at `p` leaves on disk. -/
def crash (w : Store τ) (p : Path) (t : τ) : CrashPoint → Store τ
  | .before => w
  | .saving => { w with files := Dict.set w.files (p.1, if isGz p.2 then p.2 else npyName p.2) .damaged }
  | .saved => w.save p t
  | .dumping => { w.save p t with conf := { w.conf with disk := some .invalid } }

end Store

end PyG2P
