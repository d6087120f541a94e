import Verif.Model.Controller
import Verif.Model.TableApply
import Verif.Model.Correction
import Verif.Model.Writers

/-! # A whole run — controller.py 83-138, interpolation/__init__.py 60-66, writers/__init__.py 43-109

From the selected messages to the maps written, for interpolation tables that are known. Target maps have `k` cells. -/

namespace PyG2P
variable {n m k : Nat}

/-- An interpolation table, by kind of method; source indexes are those stored. -/
inductive Table (k : Nat) where
  | gribNearest (tbl : List (Fin k × Nat))
  | gribInvdist (tbl : List (TableApply.Row k))
  | nearest (idx : Fin k → Nat)
  | weighted (rows : Fin k → List (Nat × Num))

/-- a list of `k` cells as a map. -/
def cellsOf (l : List Num) : Fin k → Num := fun c => l.getD c .nan

/-- interpolation/__init__.py 60-66 (`interpolate`): 270-313, 315-371 or 142-264 with the table known. The result has
no mask. -/
def Table.interpolate (t : Table k) (mvOut : Num) (v : Arr n) : Py (Arr k) :=
  match t with
  | .gribNearest tbl => (TableApply.gribNearest v mvOut tbl).map Arr.plain
  | .gribInvdist tbl => (TableApply.gribInvdist v mvOut tbl).map Arr.plain
  | .nearest idx => (TableApply.scipyNearest v mvOut (List.ofFn idx)).map fun l => Arr.plain (cellsOf l)
  | .weighted rows => (TableApply.scipyWeighted v mvOut (List.ofFn rows)).map fun l => Arr.plain (cellsOf l)

/-- A corrector (correction.py 38-57): formula, heights of the target cells, surface heights from the geopotential
already on the target grid, and their missing values. -/
structure Height (k : Nat) where
  formula : NumExpr3
  dem : Arr k
  gem : Arr k
  demMv : Num
  gemMv : Num

/-- correction.py 78: `default_fillvals['f8']`, the interpolated values being doubles. -/
def fillF8 : Num := .fin ValueFormat.f8.fill

/-- correction.py 59-82. -/
def Height.correct (h : Height k) (p : Arr k) : Arr k :=
  Corrector.correct h.formula h.dem h.gem p h.demMv h.gemMv fillF8

/-- The settings of a run: what the controller gets (messages as selected), conversion (`none`: no conversion;
`some f`: the text of the function), the tables and correctors of the two resolutions, the missing value of the target
coordinates (`mv_out`), mask and missing value of the clone map, and the naming options. -/
structure RunIn (n m k : Nat) where
  ctrl : CtrlIn n m
  conversion : Option (Option Str)
  table : Table k
  table2 : Table k
  mvOut : Num
  height : Option (Height k)
  height2 : Option (Height k)
  mask : Option (Fin k → Bool)
  mvClone : Num
  namePrefix : Str
  fmap : Int
  ext : Int

namespace RunIn

/-- controller.py 105-133: conversion, then aggregation; negative values are cut off only after a conversion. -/
def fields (ne : NumExpr) (r : RunIn n m k) : Py (Dict Step (Field n m) × Option Step) :=
  match r.conversion with
  | none => { r.ctrl with cutOff := false }.run
  | some f =>
    match r.ctrl.msgs.applyConversion ne (Converter.init f r.ctrl.cutOff) with
    | .error e => .error e
    | .ok msgs => { r.ctrl with msgs := msgs }.run

/-- correction, if there is one. -/
def corrected (h : Option (Height k)) (a : Arr k) : Arr k :=
  match h with
  | none => a
  | some h => h.correct a

/-- writers/__init__.py 61-64, 104-107: interpolation and correction of one map; `second`: is the second grid in use? -/
def render (r : RunIn n m k) (second : Bool) (f : Field n m) : Py (Arr k) :=
  let t := if second then r.table2 else r.table
  let h := if second then r.height2 else r.height
  match f with
  | .inl v => (t.interpolate r.mvOut v).map (corrected h)
  | .inr v => (t.interpolate r.mvOut v).map (corrected h)

/-- writers/__init__.py 90-109 after the manipulation: names and contents of the PCRaster files of a run that ends
without error. -/
def pcraster (ne : NumExpr) (r : RunIn n m k) : Py (List (Str × (Fin k → Num))) :=
  match r.fields ne with
  | .error e => .error e
  | .ok (values, change) =>
    (writePcraster r.namePrefix r.fmap r.ext (fun b f => (r.render b f).map (pcrWrite r.mask r.mvClone)) change
      values).mapM fun q => q.2.map fun c => (q.1, c)

/-- writers/__init__.py 43-70 after the manipulation: times and interpolated maps of the data set. -/
def maps (ne : NumExpr) (r : RunIn n m k) : Py (List (Int × Arr k)) :=
  match r.fields ne with
  | .error e => .error e
  | .ok (values, change) => (writeNetcdf r.render change values).mapM fun q => q.2.map fun a => (q.1, a)

/-- writers/netcdf.py 149-168, 170-183: the cells stored for the maps. Without any map the shapes of mask and values
differ (172-173) unless the clone has no mask. -/
def store (r : RunIn n m k) (p : Packing) (ms : List (Int × Arr k)) : Py (List (Int × (Fin k → ℚ))) :=
  if ms.isEmpty && r.mask.isSome then .error .valueError
  else ms.mapM fun q => (ncWrite r.mask p (ncField r.mvOut q.2)).map fun c => (q.1, c)

/-- writers/__init__.py 43-88, writers/netcdf.py 149-168: times and stored cells of the data set. -/
def netcdf (ne : NumExpr) (p : Packing) (r : RunIn n m k) : Py (List (Int × (Fin k → ℚ))) :=
  match r.maps ne with
  | .error e => .error e
  | .ok ms => r.store p ms

end RunIn
end PyG2P
