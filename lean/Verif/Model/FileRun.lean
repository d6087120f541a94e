import Verif.Model.Pipeline
import Verif.Model.Reader
import Verif.Model.Context

/-! # From the GRIB file to the maps — controller.py 32-138, readers/grib.py 149-262

One input file. Simplification: if the file holds two grids, they have the same number `n` of points. -/

namespace PyG2P
variable {n k : Nat}

/-- The options of an aggregation (controller.py 46-56). -/
structure AggrOpts where
  step : Int
  type : String
  halfweights : Bool
  forceZero : Bool

/-- A command on one GRIB file: its messages, whether eccodes can index it, the options that select messages, the
aggregation, and what is needed to make and write the maps (see `RunIn`). `gridId`, `gridId2`: identifiers of the
grids (of no influence on the maps). -/
structure FileIn (n k : Nat) where
  file : List (GMsg (Arr n))
  indexable : Bool
  sel : SelPar
  tstart : Option Int
  tend : Option Int
  aggr : Option AggrOpts
  unitTime : Int
  cutOff : Bool
  conversion : Option (Option Str)
  table : Table k
  table2 : Table k
  mvOut : Num
  height : Option (Height k)
  height2 : Option (Height k)
  mask : Option (Fin k → Bool)
  mvClone : Num
  namePrefix : Str
  fmap : Int
  ext : Int
  gridId : Str
  gridId2 : Str

/-- grib.py 170-171, 211, src/pyg2p/__init__.py 157: date and hour of a message (`dataDate`, `dataTime`). Both keys are
numbers; the date is taken as it is. -/
def GMsg.referenceTime {α : Type} (m : GMsg α) : Py (Int × Nat) :=
  match m.get? "dataDate".toList, m.get? "dataTime".toList with
  | some (.int d), some (.int t) => (referenceHour t.toNat).map fun h => (d, h)
  | _, _ => .error .valueError

namespace FileIn

/-- controller.py 34: a new reader; the index has the perturbation number if the option is given. -/
def reader (x : FileIn n k) : Reader := Reader.init x.indexable x.sel.perturbation.isSome ⟨0, [], [], false⟩

/-- grib.py 247: the type of the last message found for the information (`type_of_param`). -/
def paramType (x : FileIn n k) : String :=
  match (Reader.getGids x.file x.reader (infoCmd x.sel)).1 with
  | .error _ => ""
  | .ok g =>
    match g.getLast?.bind fun p => x.file[p.2]? with
    | none => ""
    | some m => String.ofList m.stepType

/-- controller.py 39-40: the requested range. -/
def range (x : FileIn n k) (info : Reader.StepsInfo) : Int × Int :=
  (if givenInt x.tstart then x.tstart.getD 0 else 0, if givenInt x.tend then x.tend.getD 0 else info.end_)

/-- grib.py 156-162: key of the second selected message, or of the only one. -/
def selectedType (x : FileIn n k) (r : Reader) (kw : Kwargs) : String :=
  match (Reader.getGids x.file r kw).1 with
  | .error _ => ""
  | .ok g =>
    match (if 1 < g.length then g[1]? else g[0]?).bind fun p => x.file[p.2]? with
    | none => ""
    | some m => String.ofList m.stepType

/-- grib.py 154, 165-171: the first selected message of a file (`self._selected_grbs[0]`). -/
def firstMsg (file : List (GMsg (Arr n))) (r : Reader) (kw : Kwargs) : Option (GMsg (Arr n)) :=
  match (Reader.getGids file r kw).1 with
  | .error _ => none
  | .ok g => g.head?.bind fun p => file[p.2]?

/-- grib.py 169: missing value of the first selected message of a file. -/
def firstMv (file : List (GMsg (Arr n))) (r : Reader) (kw : Kwargs) : Num :=
  match firstMsg file r kw with
  | none => .nan
  | some m => m.missingValue

/-- grib.py 170-171, 211, src/pyg2p/__init__.py 157: date and hour of the messages, read from the first one when the
messages are put together. -/
def firstTime (file : List (GMsg (Arr n))) (r : Reader) (kw : Kwargs) : Py (Int × Nat) :=
  match firstMsg file r kw with
  | none => .error .indexError
  | some m => m.referenceTime

/-- grib.py 169: missing value of the first selected message. -/
def selectedMv (x : FileIn n k) (r : Reader) (kw : Kwargs) : Num := firstMv x.file r kw

/-- grib.py 154, 204-207: the grid of the messages. -/
def grid (x : FileIn n k) (s : Reader.Selection (Arr n)) : Grid :=
  ⟨x.gridId, 0, s.change.map fun c => (x.gridId2, c)⟩

/-- controller.py 46-56, 64-69, 83-138: the settings of the run once the messages are read; `t2`: type of the selected
messages. -/
def assemble {m : Nat} (x : FileIn n k) (info : Reader.StepsInfo) (t2 : String) (msgs : MsgSet n m) : RunIn n m k where
  ctrl := {
    msgs := msgs
    aggregate := x.aggr.isSome
    aggrStep := x.aggr.map AggrOpts.step
    aggrType := (x.aggr.map AggrOpts.type).getD ""
    halfweights := (x.aggr.map AggrOpts.halfweights).getD false
    forceZero := (x.aggr.map AggrOpts.forceZero).getD false
    unitTime := x.unitTime
    inputStep := info.step
    stepType := x.paramType
    stepType2 := t2
    start := (x.range info).1
    end_ := (x.range info).2
    cutOff := x.cutOff }
  conversion := x.conversion
  table := x.table
  table2 := x.table2
  mvOut := x.mvOut
  height := x.height
  height2 := x.height2
  mask := x.mask
  mvClone := x.mvClone
  namePrefix := x.namePrefix
  fmap := x.fmap
  ext := x.ext

/-- controller.py 32-58 (`init_execution`) and 83-90: information, selection, messages. -/
def settings (x : FileIn n k) : Py (RunIn n n k) :=
  match Reader.gribInfo x.file x.reader (infoCmd x.sel) with
  | (.error e, _) => .error e
  | (.ok info, r1) =>
    let w := readerWindow x.tstart x.tend (x.aggr.map AggrOpts.step) info.step info.end_
    let kw := selectCmd x.sel w.1 w.2
    match Reader.select x.file r1 kw with
    | (.error e, _) => .error e
    | (.ok s, _) =>
      match firstTime x.file r1 kw with
      | .error e => .error e
      | .ok _ =>
        match MsgSet.init s.first (x.selectedMv r1 kw) (x.grid s) s.second with
        | .error e => .error e
        | .ok msgs => .ok (x.assemble info (x.selectedType r1 kw) msgs)

/-- controller.py 83-138 with PCRaster output: names and contents of the files written. -/
def pcraster (ne : NumExpr) (x : FileIn n k) : Py (List (Str × (Fin k → Num))) :=
  match x.settings with
  | .error e => .error e
  | .ok r => r.pcraster ne

end FileIn
end PyG2P
