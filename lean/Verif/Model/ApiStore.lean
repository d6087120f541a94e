import Verif.Model.ApiRun
import Verif.Model.TableRun

/-! # Runs of the programming interface and their interpolation tables — src/pyg2p/main/api.py 258-315,
interpolation/__init__.py 51-54, 164-393

As `ApiRun`, with tables looked up or created for every map (`StoreRun`). -/

namespace PyG2P
variable {n m k : Nat}

/-- api.py 292: the interpolator of an API run is a new one, and nothing gives it the messages from which the methods of the
GRIB library make a table (interpolation/__init__.py 51-54; only the writer calls 387-391, for its own): the library is
asked for neighbours in no message, for which it raises `missing`. Simplification: at least one cell of the target has
coordinates (else the library is not asked). -/
def Lookup.underApi (missing : PyErr) (q : Lookup k) : Lookup k :=
  if q.scipy then q else { q with build := .error missing }

/-- api.py 292-315: the maps returned, or the error, and the tables left. -/
def RunIn.apiMapsIn (le : Str → Str → Bool) (ne : NumExpr) (missing : PyErr) (w : Store (Table k)) (q q2 : Lookup k)
    (r : RunIn n m k) : Outcome k (Step × (Fin k → Num)) :=
  match r.fields ne with
  | .error e => ⟨[], some e, w⟩
  | .ok (values, change) =>
    let o := r.mapLoop le (q.underApi missing) (q2.underApi missing)
      (fun s a => (s, Api.maskValues r.mask r.mvClone a)) w
      ((gridLoop change false values).map fun p => (p.1, p.2.1, p.2.2))
    match o.error with
    | none => { o with maps := sortedBy (fun p => p.1.endStep) (Dict.ofPairs o.maps) }
    | some e => ⟨[], some e, o.store⟩

/-- api.py 286-315 (see `FileIn.apiMaps`). -/
def FileIn.apiMapsIn (le : Str → Str → Bool) (ne : NumExpr) (missing : PyErr) (w : Store (Table k)) (q : Lookup k)
    (x : FileIn n k) : Outcome k (Step × (Fin k → Num)) :=
  match x.withoutHalf.settings with
  | .error e => ⟨[], some e, w⟩
  | .ok r => r.apiMapsIn le ne missing w q q

/-- api.py 118-119, 286-315: the same with a second file (see `FileIn.apiMapsTwo`); `q2`: the table of its grid. -/
def FileIn.apiMapsTwoIn (le : Str → Str → Bool) (ne : NumExpr) (missing : PyErr) (w : Store (Table k)) (q q2 : Lookup k)
    (x : FileIn n k) (y : SecondFile m) : Outcome k (Step × (Fin k → Num)) :=
  match x.withoutHalf.settingsTwo y with
  | .error e => ⟨[], some e, w⟩
  | .ok r => r.apiMapsIn le ne missing w q q2

end PyG2P
