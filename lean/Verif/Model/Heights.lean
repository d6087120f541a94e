import Verif.Model.FileRun
import Verif.Model.Config

/-! # Heights for the correction — controller.py 42-43, readers/grib.py 84-105, context.py 139-143, correction.py 38-57,
84-108

Simplification: the geopotential fields have the same number `n` of points as the input fields. The interpolation table
of the grid is known (correction.py 102, 106: the map has just been interpolated with it). -/

namespace PyG2P
variable {n k : Nat}

/-- config.py 228: the names of geopotential messages. -/
def geoNames : List Str := ["fis".toList, "z".toList, "FIS".toList, "orog".toList]

namespace Reader
variable {α : Type}

/-- grib.py 84-105 (`has_geopotential`): every message visited is released at once. The member selected last in the
index (`kw`, by `get_grib_info`) stays selected. -/
def hasGeopotential (file : List (GMsg α)) (r : Reader) (kw : Kwargs) : Bool × Reader :=
  let vis := visited file r.src kw geoNames
  (!vis.isEmpty, { r with src := srcAfter file r.src, w := (scanLoop (fun _ => false) vis r.w).2 })

end Reader

/-- correction.py 87: the selection of the geopotential. -/
def geoCmd : Kwargs := [("shortName".toList, .mem (geoNames.map KV.str))]

/-- correction.py 84-108 (`_read_geo`) on the file found: missing value and surface heights on the target grid. -/
def readGeo (file : List (GMsg (Arr n))) (indexable : Bool) (gemFormula : Num → Num) (t : Table k) (mvOut : Num) :
    Py (Num × Arr k) :=
  let r := Reader.init indexable false ⟨0, [], [], false⟩
  match Reader.getGids file r geoCmd, Reader.select file r geoCmd with
  | (.ok g, _), (.ok s, _) =>
    let mv := ((g.head?.bind fun p => file[p.2]?).map GMsg.missingValue).getD .nan
    match FileIn.firstTime file r geoCmd with
    | .error e => .error e
    | .ok _ =>
    match MsgSet.init s.first mv ⟨[], 0, none⟩ s.second with
    | .error e => .error e
    | .ok msgs =>
      match Dict.get? msgs.first msgs.firstStep with
      | none => .error .keyError
      | some z => (t.interpolate mvOut (Corrector.gemOnGrib gemFormula z mv)).map fun a => (mv, a)
  | (.error e, _), _ => .error e
  | _, (.error e, _) => .error e

/-- What the correction needs beside the input: the path of the input file; configured geopotentials (`isFile`, `vars`,
`folders`: see `geoFile`) and the files under their paths (messages, and whether they can be indexed); the formulas, the
heights of the target cells and their missing value. -/
structure GeoIn (n k : Nat) where
  inputPath : Str
  isFile : Str → Bool
  vars : Dict Str Str
  folders : List (Option Str)
  contents : Str → List (GMsg (Arr n)) × Bool
  formula : NumExpr3
  gemFormula : Num → Num
  dem : Arr k
  demMv : Num

namespace FileIn

/-- controller.py 42-43, context.py 42-43: the input file, if it holds a geopotential. -/
def ownGeo (x : FileIn n k) (o : GeoIn n k) : Option Str :=
  let r1 := (Reader.gribInfo x.file x.reader (infoCmd x.sel)).2
  if (Reader.hasGeopotential x.file r1 (infoCmd x.sel)).1 then some o.inputPath else none

/-- correction.py 38-57, 84-108: the corrector for the grid `id` with interpolation table `t`. -/
def heightFor (x : FileIn n k) (o : GeoIn n k) (id : Str) (t : Table k) : Py (Height k) :=
  match geoFile o.isFile o.vars (x.ownGeo o) o.folders id with
  | .error e => .error e
  | .ok path =>
    match readGeo (o.contents path).1 (o.contents path).2 o.gemFormula t x.mvOut with
    | .error e => .error e
    | .ok (mv, gem) => .ok ⟨o.formula, o.dem, gem, o.demMv, mv⟩

/-- The run with the correctors of its grids (the second one only if there is a second grid). A command on one grid
whose corrector cannot be made is an error here; the program has then written no map (writers/__init__.py 65-67, 106-108). -/
def withHeights (x : FileIn n k) (o : GeoIn n k) : Py (FileIn n k) :=
  match x.heightFor o x.gridId x.table with
  | .error e => .error e
  | .ok h => .ok { x with height := some h, height2 := (x.heightFor o x.gridId2 x.table2).toOption }

end FileIn
end PyG2P
