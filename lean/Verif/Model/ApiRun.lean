import Verif.Model.TwoFiles
import Verif.Model.Api

/-! # Whole runs of the programming interface — src/pyg2p/main/api.py 258-315

As `FileRun` and `TwoFiles` (one or two input files, tables known), for `Pyg2pApi.execute`. -/

namespace PyG2P
variable {n m k : Nat}

/-- api.py 292-315: the maps by step, once the messages are read. Conversion, aggregation and cut-off are those of the
controller (controller.py 105-138), interpolation and correction those of the command (api.py 309-312). -/
def RunIn.apiMaps (ne : NumExpr) (r : RunIn n m k) : Py (List (Step × (Fin k → Num))) :=
  match r.fields ne with
  | .error e => .error e
  | .ok (values, change) =>
    match (gridLoop change false values).mapM fun q =>
        (r.render q.2.2 q.2.1).map fun a => (q.1, Api.maskValues r.mask r.mvClone a) with
    | .error e => .error e
    | .ok l => .ok (sortedBy (fun p => p.1.endStep) (Dict.ofPairs l))

/-- api.py 217-223: an API run does not read the option for half weights. -/
def FileIn.withoutHalf (x : FileIn n k) : FileIn n k :=
  { x with aggr := x.aggr.map fun a => { a with halfweights := false } }

/-- api.py 286-315: the maps an API run returns for the settings of a command. The information read in 287 is read again
by the controller, from a new reader, with the same request (controller.py 34-35): it fails first, in the same way. The
maps of the clone and of the coordinates can be read (writers/netcdf.py 25-49: a writer is made, with nothing to write). -/
def FileIn.apiMaps (ne : NumExpr) (x : FileIn n k) : Py (List (Step × (Fin k → Num))) :=
  match x.withoutHalf.settings with
  | .error e => .error e
  | .ok r => r.apiMaps ne

/-- api.py 118-119, 286-315: the same with a second file (`inputFile2`), read by the controller as that of a command. -/
def FileIn.apiMapsTwo (ne : NumExpr) (x : FileIn n k) (y : SecondFile m) : Py (List (Step × (Fin k → Num))) :=
  match x.withoutHalf.settingsTwo y with
  | .error e => .error e
  | .ok r => r.apiMaps ne

end PyG2P
