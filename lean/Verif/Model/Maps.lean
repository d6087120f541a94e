import Verif.Model.Tables
import Verif.Model.Correction
import Verif.Model.Writers

/-! # Target maps, DEM and clone maps — src/pyg2p/main/readers/netcdf.py, readers/pcr.py,
src/pyg2p/main/interpolation/latlong.py, writers/netcdf.py 21-52, 168-169

A netCDF file is the list of its variables. `[:].data` is the array of the file after unpacking; coordinate
variables hold numbers (no missing ones). A grid is the list of its rows. -/

namespace PyG2P

/-- A variable of a netCDF file: its dimensions (names and lengths) and its cells in file order; the attributes
`missing_value` and `_FillValue`; for an integer type the default fill value of the type. -/
structure NcVar where
  dims : List (Str × Nat)
  cells : List Num
  missing : Option Num
  fill : Option Num
  intFill : Option Num

/-- The variables of a netCDF file, in file order. -/
abbrev NcFile := Dict Str NcVar

namespace NcVar

/-- The values of a coordinate variable. -/
def coords (v : NcVar) : List ℚ := v.cells.map fun x => match x with | .fin q => q | .nan => 0

/-- readers/netcdf.py 35-42: the missing value the reader reports. -/
def mv (v : NcVar) : Num :=
  match v.missing, v.fill, v.intFill with
  | some m, _, _ => m
  | none, some m, _ => m
  | none, none, some m => m
  | none, none, none => .nan

end NcVar

/-- What `NetCDFReader.__init__` sets (readers/netcdf.py 12-42). -/
structure NcReader where
  main : NcVar
  rows : Nat
  cols : Nat
  lats : List ℚ
  lons : List ℚ
  latGeo : MapGeo
  lonGeo : MapGeo
  mv : Num

/-- readers/netcdf.py 44-52 (`find_main_var`): with no or several candidates the local variable is never
set. -/
def findMainVar (f : NcFile) : Py NcVar :=
  match f.filter fun p => decide (2 ≤ p.2.dims.length) with
  | [p] => .ok p.2
  | _ => .error .unboundLocal

/-- `x[:].min()` (numpy raises `ValueError` for an empty array). -/
def minOf : List ℚ → Py ℚ
  | [] => .error .valueError
  | a :: as => .ok (as.foldl min a)

/-- `x[:].max()`. -/
def maxOf : List ℚ → Py ℚ
  | [] => .error .valueError
  | a :: as => .ok (as.foldl max a)

/-- readers/netcdf.py 28-29: `x[1] - x[0]`. -/
def spacing : List ℚ → Py ℚ
  | a :: b :: _ => .ok (b - a)
  | _ => .error .indexError

/-- readers/netcdf.py 12-42 (`NetCDFReader.__init__`). -/
def ncReader (f : NcFile) : Py NcReader := do
  let v ← findMainVar f
  match v.dims with
  | [(_, rows), (_, cols)] =>
    let names := if "lon".toList ∈ Dict.keys f then ("lat".toList, "lon".toList) else ("y".toList, "x".toList)
    let lonV ← Dict.getE f names.2
    let origX ← minOf lonV.coords
    let latV ← Dict.getE f names.1
    let origY ← minOf latV.coords
    let pxlW ← spacing lonV.coords
    let pxlH ← spacing latV.coords
    let latMax ← maxOf latV.coords
    let lonMax ← maxOf lonV.coords
    .ok ⟨v, rows, cols, latV.coords, lonV.coords, ⟨origX, origY, pxlW, pxlH, origY, latMax⟩,
      ⟨origX, origY, pxlW, pxlH, origX, lonMax⟩, v.mv⟩
  | _ => .error .valueError

/-- numpy broadcasting of two lengths. -/
def broadcast (n m : Nat) : Py Nat :=
  if n = m then .ok n else if n = 1 then .ok m else if m = 1 then .ok n else .error .valueError

/-- The element of a broadcast array. -/
def bget {α : Type} (l : List α) (i : Nat) : Option α := if l.length = 1 then l[0]? else l[i]?

/-- readers/netcdf.py 59-62 (`get_lat_lon_values`): a column of latitudes and a row of longitudes, each times
`ones((rows, cols))`. -/
def NcReader.latLon (r : NcReader) : Py (List (List ℚ) × List (List ℚ)) := do
  let n ← broadcast r.lats.length r.rows
  let m ← broadcast r.lons.length r.cols
  .ok ((List.range n).map fun i => (List.range r.cols).map fun _ => (bget r.lats i).getD 0,
    (List.range r.rows).map fun _ => (List.range m).map fun j => (bget r.lons j).getD 0)

/-- A PCRaster map (readers/pcr.py 11-31). -/
structure PcrMap where
  geo : MapGeo
  rows : List (List Num)
  mv : Num

/-- A map file: netCDF or PCRaster (by extension, latlong.py 19, 51; writers/netcdf.py 25, 37). -/
inductive MapFile where
  | nc (f : NcFile)
  | pcr (m : PcrMap)

/-- exceptions.py (`INVALID_INTERPOL_METHOD`). -/
def INVALID_INTERPOL_METHOD : Nat := 8400

/-- netCDF4 `default_fillvals['f8']`. -/
def f8Fill : Num := .fin (9969209968386869 * 10 ^ 21)

/-- latlong.py 9-43 (`LatLong`): coordinates of the target cells, their missing value, the identifier. -/
structure Target where
  lats : List (List Num)
  lons : List (List Num)
  mv : Num
  id : Str
  deriving DecidableEq

/-- latlong.py 11-43. `same`: the two options name the same file; the files by what they contain. A PCRaster
reader given a netCDF file for the longitudes is outside the model (`AttributeError`: gdal opens nothing with
band 1 as this driver would). -/
def latLong (same : Bool) (latMap lonMap : MapFile) : Py Target :=
  match latMap with
  | .nc f =>
    if same = false then .error (.app INVALID_INTERPOL_METHOD)
    else do
      let r ← ncReader f
      let g ← r.latLon
      .ok ⟨g.1.map (·.map Num.fin), g.2.map (·.map Num.fin), f8Fill, targetId r.latGeo r.lonGeo⟩
  | .pcr a =>
    match lonMap with
    | .nc _ => .error .attributeError
    | .pcr b => .ok ⟨a.rows, b.rows, a.mv, targetId a.geo b.geo⟩

/-- latlong.py 46-57 (`Dem`): missing value and cells. -/
def readDem : MapFile → Py (Num × List Num)
  | .nc f => do
    let r ← ncReader f
    .ok (r.mv, r.main.cells)
  | .pcr m => .ok (m.mv, m.rows.flatten)

/-- writers/netcdf.py 37-52: the coordinates the writer keeps; for PCRaster maps cells equal to the missing
value of the latitude map become NaN. -/
def writerLatLon (same : Bool) (latMap lonMap : MapFile) : Py (List (List Num) × List (List Num)) :=
  match latMap with
  | .nc f =>
    if same = false then .error (.app INVALID_INTERPOL_METHOD)
    else do
      let r ← ncReader f
      let g ← r.latLon
      .ok (g.1.map (·.map Num.fin), g.2.map (·.map Num.fin))
  | .pcr a =>
    match lonMap with
    | .nc _ => .error .attributeError
    | .pcr b =>
      let clean := fun rows : List (List Num) => rows.map (·.map fun x => if x.neb a.mv then x else .nan)
      .ok (clean a.rows, clean b.rows)

/-- `row[0]`. -/
def firstCell : List Num → Py Num
  | [] => .error .indexError
  | x :: _ => .ok x

/-- writers/netcdf.py 168-169: the coordinate variables of the data set, `lons[0,:]` and `lats[:,0]`. -/
def writtenCoords (lats lons : List (List Num)) : Py (List Num × List Num) :=
  match lons with
  | [] => .error .indexError
  | row :: _ => do
    let col ← lats.mapM firstCell
    .ok (col, row)

end PyG2P
