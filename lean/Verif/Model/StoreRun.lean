import Verif.Model.FileRun
import Verif.Model.Tables

/-! # A whole run with its interpolation tables — writers/__init__.py 43-109, interpolation/__init__.py 60-139, 187-385

As `RunIn`, but the table is looked up (or created) for every map, as the program does; the maps are written one by
one. The corrector's own lookup of the table for the geopotential is left out (its heights are given). -/

namespace PyG2P
variable {n m k : Nat}

/-- What is needed to find or create the table of one grid: the kind of method (`scipy`, else GRIB; `checks`: see
`Store.gribAt`), the identifiers and folders, and the outcome of computing a new table. -/
structure Lookup (k : Nat) where
  scipy : Bool
  checks : Bool
  run : TblRun
  build : Py (Table k)

/-- interpolation/__init__.py 60-66: the table for one map, and the state afterwards. -/
def Store.table (le : Str → Str → Bool) (w : Store (Table k)) (q : Lookup k) : Py (Table k) × Store (Table k) :=
  if q.scipy then w.scipy le q.run q.build else w.grib le q.checks q.run q.build

/-- What a run leaves: the maps made, the error that ended it, and the tables. -/
structure Outcome (k : Nat) (β : Type) where
  maps : List β
  error : Option PyErr
  store : Store (Table k)

namespace RunIn

/-- writers/__init__.py 61-65, 104-108: one map with a given table; `second`: is the second grid in use? -/
def renderBy (r : RunIn n m k) (t : Table k) (second : Bool) (f : Field n m) : Py (Arr k) :=
  { r with table := t, table2 := t }.render second f

/-- writers/__init__.py 53-68, 96-109: the loop over the maps; `q`, `q2`: tables of the two grids; `put`: what is done
with a map. -/
def mapLoop {β γ : Type} (le : Str → Str → Bool) (r : RunIn n m k) (q q2 : Lookup k) (put : γ → Arr k → β) :
    Store (Table k) → List (γ × Field n m × Bool) → Outcome k β
  | w, [] => ⟨[], none, w⟩
  | w, (x, f, second) :: rest =>
    match w.table le (if second then q2 else q) with
    | (.error e, w') => ⟨[], some e, w'⟩
    | (.ok t, w') =>
      match r.renderBy t second f with
      | .error e => ⟨[], some e, w'⟩
      | .ok a =>
        let o := mapLoop le r q q2 put w' rest
        ⟨put x a :: o.maps, o.error, o.store⟩

/-- writers/__init__.py 90-109 with the maps already there: PCRaster files written before the run ended, the error, and
the tables. -/
def pcrasterIn (le : Str → Str → Bool) (ne : NumExpr) (w : Store (Table k)) (q q2 : Lookup k) (r : RunIn n m k) :
    Outcome k (Str × (Fin k → Num)) :=
  match r.fields ne with
  | .error e => ⟨[], some e, w⟩
  | .ok (values, change) =>
    mapLoop le r q q2 (fun name a => (name, pcrWrite r.mask r.mvClone a)) w
      (((gridLoop change false values).zipIdx 1).map fun p =>
        (pcrName r.namePrefix r.fmap r.ext p.2, p.1.2.1, p.1.2.2))

/-- writers/__init__.py 43-86: the times and fields given to the netCDF writer; the file is written once all maps are made, so that a
run that ends with an error writes none. -/
def netcdfIn (le : Str → Str → Bool) (ne : NumExpr) (w : Store (Table k)) (q q2 : Lookup k) (r : RunIn n m k) :
    Outcome k (Int × (Fin k → Num)) :=
  match r.fields ne with
  | .error e => ⟨[], some e, w⟩
  | .ok (values, change) =>
    let o := mapLoop le r q q2 (fun t a => (t, ncField r.mvOut a)) w
      ((gridLoop change false values).map fun p => (p.1.endStep, p.2.1, p.2.2))
    match o.error with
    | none => o
    | some e => ⟨[], some e, o.store⟩

end RunIn
end PyG2P
