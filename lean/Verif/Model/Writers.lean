import Verif.Model.Messages

/-! # Writers — src/pyg2p/main/writers/__init__.py, writers/pcr.py, writers/netcdf.py

Arithmetic is exact (no float rounding). Shapes are flattened; a clone map of another shape than the maps is
not modelled. -/

namespace PyG2P

/-! ## Map names (writers/__init__.py 122-133) -/

/-- writers/__init__.py 125: the number of map `i`. -/
def mapNumber (fmap ext i : Int) : Int := fmap + (i - 1) * ext

/-- writers/__init__.py 122-133 (`_name_pcr_map`), without the output folder. -/
def pcrName (namePrefix : Str) (fmap ext i : Int) : Str :=
  let number := Str.ofInt (mapNumber fmap ext i)
  let name := namePrefix ++ List.replicate (11 - namePrefix.length - number.length) '0' ++ number
  name.take 8 ++ '.' :: (name.drop 8).take 3

/-! ## The loop over the maps (writers/__init__.py 43-68, 90-109; api.py 292-312) -/

/-- writers/__init__.py 55, 98: `messages.have_resolution_change() and timestep == change_res_step`. -/
def isChange (change : Option Step) (t : Step) : Bool :=
  match change with
  | none => false
  | some c => Step.pyEq t c

/-- One pass of the loop: the step, its values, and whether the second grid is used for them. `second` is the
flag `is_second_res` so far, `change` the step at which it is set (`none`: no resolution change). -/
def gridLoop {α : Type} (change : Option Step) : Bool → List (Step × α) → List (Step × α × Bool)
  | _, [] => []
  | second, (t, v) :: rest =>
    (t, v, second || isChange change t) :: gridLoop change (second || isChange change t) rest

/-- writers/__init__.py 90-109 (`_write_maps_pcraster`): names and contents of the files, in the order
written; `render second v` stands for interpolation on the first or second grid, correction and masking. -/
def writePcraster {α β : Type} (namePrefix : Str) (fmap ext : Int) (render : Bool → α → β) (change : Option Step)
    (values : List (Step × α)) : List (Str × β) :=
  ((gridLoop change false values).zipIdx 1).map fun q =>
    (pcrName namePrefix fmap ext q.2, render q.1.2.2 q.1.2.1)

/-- writers/__init__.py 43-68 (`_write_maps_netcdf`): times and fields of the data set. -/
def writeNetcdf {α β : Type} (render : Bool → α → β) (change : Option Step)
    (values : List (Step × α)) : List (Int × β) :=
  (gridLoop change false values).map fun q => (q.1.endStep, render q.2.2 q.2.1)

/-! ## Masks -/

/-- `np.isclose(x, y)` with `rtol=1e-5, atol=1e-8` (used by `ma.masked_values`). -/
def isClose : Num → Num → Bool
  | .fin x, .fin y => decide (|x - y| ≤ 1 / 100000000 + 1 / 100000 * |y|)
  | _, _ => false

/-- writers/pcr.py 28-30, netcdf.py 35-36: `ma.getmask(ma.masked_values(clone, mv))`. `float`: is the map of a
floating type (else the comparison is exact). `none` is `nomask`: the mask is shrunk when no cell is masked. -/
def cloneMask {n : Nat} (float : Bool) (clone : Fin n → Num) (mv : Num) : Option (Fin n → Bool) :=
  let m : Fin n → Bool := fun i => if float then isClose (clone i) mv else decide (clone i = mv)
  if ∃ i, m i = true then some m else none

/-- is the cell outside the clone? -/
def outside {n : Nat} (mask : Option (Fin n → Bool)) (i : Fin n) : Bool :=
  match mask with
  | none => false
  | some m => m i

/-- writers/pcr.py 32-50 (`write`, `_mask_values`): the array written. Setting a masked cell unmasks it. -/
def pcrWrite {n : Nat} (mask : Option (Fin n → Bool)) (mv : Num) (values : Arr n) : Fin n → Num := fun i =>
  let v := if (values.data i).isNan then mv else values.data i
  let m := values.masked i && !(values.data i).isNan
  if outside mask i || m then mv else v

/-! ## netCDF (writers/netcdf.py) -/

/-- netcdf.py 81-83 (`steps_units_netcdf_name`). -/
def unitName : Str → Option Str := fun u =>
  Dict.get? ([("s", "seconds"), ("m", "minutes"), ("h", "hours"), ("3h", "3h steps"), ("6h", "6h steps"),
    ("12h", "12h steps"), ("D", "days"), ("M", "months"), ("Y", "years"), ("10Y", "10Y steps"),
    ("30Y", "30Y steps"), ("C", "centuries")].map fun p => (p.1.toList, p.2.toList)) u

/-- netcdf.py 84-85 (`steps_units_conversion_time`), in hours. -/
def unitHours : Str → Option ℚ := fun u =>
  Dict.get? ([("s", 1 / 3600), ("m", 1 / 60), ("h", 1), ("3h", 3), ("6h", 6), ("12h", 12),
    ("D", 24)].map fun p => (p.1.toList, p.2)) u

/-- The time variable: its unit name, whether it is integer (`i4`), and its values. -/
structure TimeVar where
  unit : Str
  int : Bool
  values : List ℚ
  deriving DecidableEq

/-- netcdf.py 80-125: the time axis. `requested`: `outMaps.outputStepUnits`. An unknown GRIB unit raises
`KeyError` (102 or 114). -/
def timeAxis (grib : Str) (requested : Option Str) (times : List Int) : Py TimeVar :=
  let same : List ℚ := times.map fun t : Int => (t : ℚ)
  let keep : Py TimeVar := match unitName grib with
    | none => .error .keyError
    | some n => .ok ⟨n, true, same⟩
  match requested with
  | none => keep
  | some out =>
    match unitName out with
    | none => keep
    | some name =>
      if out = grib then .ok ⟨name, true, same⟩
      else match unitHours out, unitHours grib with
        | some ho, some hg =>
          let vs := same.map fun t => t * hg / ho
          .ok ⟨name, decide (∀ v ∈ vs, v.den = 1), vs⟩
        | _, _ => keep

/-- The value formats modelled. -/
inductive ValueFormat where
  | i1 | i2 | i4 | f8
  deriving DecidableEq

namespace ValueFormat

/-- netCDF4 `default_fillvals`. -/
def fill : ValueFormat → ℚ
  | i1 => -127
  | i2 => -32767
  | i4 => -2147483647
  | f8 => 9969209968386869 * 10 ^ 21

/-- is it an integer format? -/
def isInt : ValueFormat → Bool
  | f8 => false
  | _ => true

/-- largest value of an integer format. -/
def maxInt : ValueFormat → Int
  | i1 => 127
  | i2 => 32767
  | i4 => 2147483647
  | f8 => 0

end ValueFormat

/-- The packing attributes of the variable (netcdf.py 144-149). -/
structure Packing where
  fmt : ValueFormat
  scale : ℚ
  offset : ℚ
  /-- the result of casting an integer that is out of the range of the format (undefined in C). -/
  overflow : Int → ℚ

/-- netCDF4 `_pack` on write: `(v - add_offset) / scale_factor`, for integer formats rounded (half to even)
and cast. -/
def Packing.pack (p : Packing) (v : ℚ) : ℚ :=
  let x := (v - p.offset) / p.scale
  if p.fmt.isInt then
    let r := Str.roundHalfEven x
    if |r| ≤ p.fmt.maxInt then (r : ℚ) else p.overflow r
  else x

/-- netcdf.py 146-149: the attribute written for a limit of the valid range. -/
def Packing.limit (p : Packing) (v : ℚ) : ℚ := (v - p.offset) / p.scale

/-- writers/__init__.py 65-70: a map as it enters the data set: cells equal to the missing value become NaN
(a comparison is false in a masked cell), then `np.array(...)` keeps the raw data and drops the mask. -/
def ncField {n : Nat} (mvOut : Num) (a : Arr n) : Fin n → Num := fun i =>
  if !a.masked i && decide (a.data i = mvOut) then .nan else a.data i

/-- netcdf.py 152-168: the cells stored for one map. A clone without missing cells has no mask array:
`ValueError` (172-173). -/
def ncWrite {n : Nat} (mask : Option (Fin n → Bool)) (p : Packing) (field : Fin n → Num) : Py (Fin n → ℚ) :=
  match mask with
  | none => .error .valueError
  | some m => .ok fun i =>
    let mvScaled := p.fmt.fill * p.scale + p.offset
    match (if m i then Num.fin mvScaled else field i) with
    | .nan => p.pack mvScaled
    | .fin v => p.pack v

end PyG2P
