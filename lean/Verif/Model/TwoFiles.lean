import Verif.Model.FileRun

/-! # Two input files — controller.py 76-95, context.py 61-63, 240-241

Options `-i` and `-I`: the messages of the second file are taken as those of a second grid. -/

namespace PyG2P
variable {n m k : Nat}

/-- The second input file: its messages and whether eccodes can index it. -/
structure SecondFile (m : Nat) where
  file : List (GMsg (Arr m))
  indexable : Bool

namespace FileIn

/-- controller.py 76-80 (first part of `read_2nd_res_messages`): a new reader for the second file, asked for no
information (its step stays -1); selection with the same command. -/
def readSecond (x : FileIn n k) (y : SecondFile m) (kw : Kwargs) : Py (MsgSet m m) :=
  let r := Reader.init y.indexable x.sel.perturbation.isSome ⟨0, [], [], false⟩
  match Reader.select y.file r kw with
  | (.error e, _) => .error e
  | (.ok s, _) =>
    match firstTime y.file r kw with
    | .error e => .error e
    | .ok _ => MsgSet.init s.first (firstMv y.file r kw) ⟨x.gridId2, 0, s.change.map fun c => (x.gridId2, c)⟩ s.second

/-- controller.py 32-58, 83-95: information and window from the first file, messages of both files. -/
def settingsTwo (x : FileIn n k) (y : SecondFile m) : Py (RunIn n m k) :=
  match Reader.gribInfo x.file x.reader (infoCmd x.sel) with
  | (.error e, _) => .error e
  | (.ok info, r1) =>
    let w := readerWindow x.tstart x.tend (x.aggr.map AggrOpts.step) info.step info.end_
    let kw := selectCmd x.sel w.1 w.2
    match Reader.select x.file r1 kw with
    | (.error e, _) => .error e
    | (.ok s, _) =>
      match firstTime x.file r1 kw with
      | .error e => .error e
      | .ok _ =>
      match MsgSet.init s.first (x.selectedMv r1 kw) (x.grid s) s.second with
      | .error e => .error e
      | .ok msgs =>
        match x.readSecond y kw with
        | .error e => .error e
        | .ok msgs2 => .ok (x.assemble info (x.selectedType r1 kw) (msgs.append2nd msgs2))

/-- controller.py 83-138 with two input files and PCRaster output. -/
def pcrasterTwo (ne : NumExpr) (x : FileIn n k) (y : SecondFile m) : Py (List (Str × (Fin k → Num))) :=
  match x.settingsTwo y with
  | .error e => .error e
  | .ok r => r.pcraster ne

end FileIn
end PyG2P
