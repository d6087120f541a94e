import Verif.Model.FileRun
import Verif.Model.TwoFiles
import Verif.Model.Config

/-! # The netCDF data set of a run — controller.py 32-138, writers/__init__.py 43-88, 117-120, writers/netcdf.py 52-168

One or two input files. Left out: the coordinate variables (see `Maps`), and attributes that are always the same. -/

namespace PyG2P
variable {n k : Nat}

/-- What the command says about the data set: its path, the description of the parameter, its unit (after conversion),
and the options as given. `float`: the number that `numpy.float64` reads in a text (NaN and infinities are not modelled);
`overflow`: see `Packing`. -/
structure NcOut where
  path : Str
  longName : Str
  unit : Str
  stepUnits : JVal
  validMin : JVal
  validMax : JVal
  valueFormat : JVal
  offset : JVal
  scaleFactor : JVal
  float : Str → Option ℚ
  overflow : Int → ℚ

/-- A data set. `since`: date and hour of the reference time; `records`: the stored cells, one map for each time. -/
structure Dataset (k : Nat) where
  path : Str
  varName : Str
  longName : Str
  unit : Str
  time : TimeVar
  since : Int × Nat
  format : ValueFormat
  scale : ℚ
  offset : ℚ
  validMin : Option ℚ
  validMax : Option ℚ
  records : List (Fin k → ℚ)

namespace NcOut

/-- netcdf.py 140-149: `np.float64(v)` for a value that is not `None`. -/
def number (float : Str → Option ℚ) : JVal → Py ℚ
  | .null => .error .typeError
  | .bool b => .ok (if b then 1 else 0)
  | .int z => .ok z
  | .num q => .ok q
  | .str s =>
    match float s with
    | none => .error .valueError
    | some q => .ok q

/-- netcdf.py 142-145: a limit of the valid range, if given. -/
def limit (float : Str → Option ℚ) (scale offset : ℚ) (v : JVal) : Py (Option ℚ) :=
  if v = .null then .ok none else (number float v).map fun q => some ((q - offset) / scale)

/-- netcdf.py 88-91: the unit asked for; a value that is not a text is no unit. -/
def requested : JVal → Option Str
  | .null => none
  | .str s => some s
  | _ => some []

/-- netcdf.py 124-129: the value format; `none`: a format that netCDF4 knows but that is not modelled. -/
def format : JVal → Py (Option ValueFormat)
  | .null => .ok (some .f8)
  | .str s =>
    if s = "i1".toList then .ok (some .i1)
    else if s = "i2".toList then .ok (some .i2)
    else if s = "i4".toList then .ok (some .i4)
    else if s = "f8".toList then .ok (some .f8)
    else if s ∈ ["S1", "u1", "u2", "u4", "i8", "u8", "f4"].map String.toList then .ok none
    else .error .keyError
  | _ => .error .keyError

end NcOut

/-- writers/__init__.py 118: the name of the data set; `type`: `aggregation.type` (a number is not modelled). -/
def ncName (namePrefix : Str) (type : Option Str) : Str :=
  namePrefix ++ '_' :: type.getD "None".toList ++ ".nc".toList

/-- grib.py 165: step unit of a message. -/
def GMsg.stepUnit {α : Type} (m : GMsg α) : Str :=
  match m.get? "stepUnits".toList with
  | some (.str u) => u
  | _ => []

namespace FileIn

/-- grib.py 154, 165-171: the first selected message of the run. -/
def firstSelected (x : FileIn n k) : Option (GMsg (Arr n)) :=
  match Reader.gribInfo x.file x.reader (infoCmd x.sel) with
  | (.error _, _) => none
  | (.ok info, r1) =>
    let w := readerWindow x.tstart x.tend (x.aggr.map AggrOpts.step) info.step info.end_
    firstMsg x.file r1 (selectCmd x.sel w.1 w.2)

/-- writers/__init__.py 71-88, netcdf.py 67-168: the data set for the maps made; `none`: value format not modelled. -/
def record {m : Nat} (x : FileIn n k) (o : NcOut) (r : RunIn n m k) (m0 : GMsg (Arr n)) (ms : List (Int × Arr k)) :
    Py (Option (Dataset k)) :=
  match timeAxis m0.stepUnit (NcOut.requested o.stepUnits) (ms.map (·.1)) with
  | .error e => .error e
  | .ok time =>
    match NcOut.format o.valueFormat with
    | .error e => .error e
    | .ok none => .ok none
    | .ok (some fmt) => do
      let scale ← NcOut.number o.float o.scaleFactor
      let offset ← NcOut.number o.float o.offset
      let vmin ← NcOut.limit o.float scale offset o.validMin
      let vmax ← NcOut.limit o.float scale offset o.validMax
      let since ← m0.referenceTime
      let recs ← r.store ⟨fmt, scale, offset, o.overflow⟩ ms
      return some {
        path := o.path
        varName := x.namePrefix
        longName := o.longName
        unit := o.unit
        time := time
        since := since
        format := fmt
        scale := scale
        offset := offset
        validMin := vmin
        validMax := vmax
        records := recs.map (·.2) }

/-- controller.py 83-138 with netCDF output. -/
def dataset (ne : NumExpr) (x : FileIn n k) (o : NcOut) : Py (Option (Dataset k)) :=
  match x.settings with
  | .error e => .error e
  | .ok r =>
    match r.maps ne with
    | .error e => .error e
    | .ok ms =>
      match x.firstSelected with
      | none => .error .indexError
      | some m0 => x.record o r m0 ms

/-- controller.py 83-138 with two input files and netCDF output: time and step unit are those of the first file
(writers/__init__.py 76-80; `append_2nd_res_messages` leaves them, pyg2p/__init__.py 148-166). -/
def datasetTwo {m : Nat} (ne : NumExpr) (x : FileIn n k) (y : SecondFile m) (o : NcOut) : Py (Option (Dataset k)) :=
  match x.settingsTwo y with
  | .error e => .error e
  | .ok r =>
    match r.maps ne with
    | .error e => .error e
    | .ok ms =>
      match x.firstSelected with
      | none => .error .indexError
      | some m0 => x.record o r m0 ms

end FileIn
end PyG2P
