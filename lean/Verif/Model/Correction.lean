import Verif.Model.Text
import Verif.Model.Numeric

/-! # Corrector — src/pyg2p/main/manipulation/correction.py

The debug branch (`DEBUG_BILINEAR_INTERPOLATION`, a constant `False`) is not modelled. -/

namespace PyG2P

/-- numexpr as a library for the correction formula in the variables `dem`, `p`, `gem`. -/
abbrev NumExpr3 := Num → Num → Num → Num

namespace Corrector
variable {n : Nat}

/-- correction.py 46, 59-82 (`correct`): `where((dem!=dem_mv) & (p!=mv) & (gem!=gem_mv), formula, mv)`
on raw data, then masked like `p`. `mv` is netCDF's default fill value for the dtype of `p`. -/
def correct (formula : NumExpr3) (dem gem p : Arr n) (demMv gemMv mv : Num) : Arr n :=
  Arr.maskedWhere (Arr.getMasks [p]) fun i =>
    if (dem.data i).neb demMv && (p.data i).neb mv && (gem.data i).neb gemMv
    then formula (dem.data i) (p.data i) (gem.data i) else mv

/-- correction.py 47, 95-99: the surface field computed from the geopotential `z` on the GRIB grid,
`where(z != mv, gemFormula, mv)`, written in place (the mask object of `values` stays). -/
def gemOnGrib (gemFormula : Num → Num) (z : Arr n) (gribMv : Num) : Arr n :=
  ⟨fun i => if (z.data i).neb gribMv then gemFormula (z.data i) else gribMv, z.mask⟩

/-- The settings of a run that the corrector uses (correction.py 26-57): context options, the
geopotential file found for the grid, and the target grid of the interpolation. -/
structure Settings where
  gridId : Str
  demMap : Str
  geoFile : Str
  formula : Str
  gemFormula : Str
  latMap : Str
  lonMap : Str
  interpolMode : Str
  deriving DecidableEq

/-- correction.py 29-30: the cache key `f'{grid_id}{dem_map}'`. -/
def key (s : Settings) : Str := s.gridId ++ s.demMap

/-- correction.py 26-36 (`get_instance`): the class-level cache `instances` and the object returned.
`build` is `Corrector(ctx, grid_id, geo_file_)` (correction.py 38-57), which may raise. -/
def getInstance {C : Type} (build : Settings → Py C) (instances : Dict Str C) (s : Settings) :
    Py (C × Dict Str C) :=
  match Dict.get? instances (key s) with
  | some c => .ok (c, instances)
  | none => do
    let c ← build s
    .ok (c, Dict.set instances (key s) c)

/-- A process: `get_instance` called for a sequence of runs; a run that raises leaves the cache as it
was. Returns what each run obtained. -/
def session {C : Type} (build : Settings → Py C) : Dict Str C → List Settings → List (Py C)
  | _, [] => []
  | d, s :: ss =>
    match getInstance build d s with
    | .ok (c, d') => .ok c :: session build d' ss
    | .error e => .error e :: session build d ss

end Corrector
end PyG2P
