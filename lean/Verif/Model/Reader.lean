import Verif.Model.Messages

/-! # GRIB reader — src/pyg2p/main/readers/grib.py

The GRIB file is a list of messages. eccodes is modelled as a world of message handles: a handle is
obtained for every message visited, and must be released exactly once. Assumed eccodes behaviour:
selecting in the index rewinds it, `codes_new_from_index` yields the messages of the selected
`shortName` (and `perturbationNumber`) in file order, none when the value is not in the index;
`codes_new_from_file` continues from the current position of the file. -/

namespace PyG2P

/-- The value of a GRIB key. -/
inductive KV where
  | int (z : Int)
  | str (s : Str)
  deriving DecidableEq

/-- A value in the selection arguments (grib.py 61-65): a plain value, a container, or a callable. -/
inductive Cond where
  | eq (v : KV)
  | mem (l : List KV)
  | pred (p : KV → Bool)

/-- One GRIB message: the keys the reader names, any other key, and the field (`α`: the values with the
mask of the bitmap). -/
structure GMsg (α : Type) where
  shortName : Str
  startStep : Int
  endStep : Int
  nj : Int
  level : Int
  stepType : Str
  missingValue : Num
  other : Dict Str KV
  values : α

namespace GMsg
variable {α : Type}

/-- `codes_get(gid, k)`, `none` when the key is not defined. -/
def get? (m : GMsg α) (k : Str) : Option KV :=
  if k = "shortName".toList then some (.str m.shortName)
  else if k = "startStep".toList then some (.int m.startStep)
  else if k = "endStep".toList then some (.int m.endStep)
  else if k = "Nj".toList then some (.int m.nj)
  else if k = "level".toList then some (.int m.level)
  else if k = "stepType".toList then some (.str m.stepType)
  else Dict.get? m.other k

end GMsg

/-- grib.py 63-65: does the value of a key satisfy the condition? -/
def Cond.holds : Cond → KV → Bool
  | .eq v, x => decide (x = v)
  | .mem l, x => decide (x ∈ l)
  | .pred p, x => p x

/-- Keyword arguments of a selection. -/
abbrev Kwargs := Dict Str Cond

/-- grib.py 56-70 (`_find`). -/
def find {α : Type} (m : GMsg α) : Kwargs → Bool
  | [] => true
  | (k, c) :: kw =>
    match m.get? k with
    | none => false
    | some x => if c.holds x then find m kw else false

/-- The eccodes handles of the process. `bad` records a release or use of a handle that is not live. -/
structure World where
  next : Nat
  live : List Nat
  rel : List Nat
  bad : Bool
  deriving DecidableEq

namespace World
/-- a new handle. -/
def alloc (w : World) : World := { w with next := w.next + 1, live := w.next :: w.live }
/-- `codes_release(h)`. -/
def release (w : World) (h : Nat) : World :=
  if h ∈ w.live then { w with live := w.live.erase h, rel := h :: w.rel } else { w with bad := true }
/-- reading a key through a handle. -/
def use (w : World) (h : Nat) : World := if h ∈ w.live then w else { w with bad := true }
end World

/-- How the file is read (grib.py 33-41): through an index, or sequentially through an open file at
message `pos`; `closed` after `close`. -/
inductive Source where
  | index (withPert : Bool)
  | file (pos : Nat)
  | closed
  deriving DecidableEq

/-- The state of a `GRIBReader` together with the handles. -/
structure Reader where
  src : Source
  selected : Option (List Nat)
  main : Option Nat
  ext : Option Nat
  stepGrib : Int
  stepGrib2 : Int
  changeStepAt : Str
  w : World
  deriving DecidableEq

namespace Reader
variable {α : Type}

/-- grib.py 24-48 (`__init__`); `indexable`: could the file be indexed. -/
def init (indexable withPert : Bool) (w : World) : Reader :=
  { src := if indexable then .index withPert else .file 0
    selected := some [], main := none, ext := none, stepGrib := -1, stepGrib2 := -1
    changeStepAt := [], w := w }

/-- The loop of `scan_grib` (grib.py 117-125, 127-136) over the messages visited (their positions in
the file): handles of matching messages are kept, the others released at once. -/
def scanLoop (f : Nat → Bool) : List Nat → World → List (Nat × Nat) × World
  | [], w => ([], w)
  | c :: cs, w =>
    let h := w.next
    let w1 := w.alloc
    if f c then
      let r := scanLoop f cs w1
      ((h, c) :: r.1, r.2)
    else scanLoop f cs (w1.release h)

/-- Does message `i` of the file match? -/
def matchAt (file : List (GMsg α)) (kw : Kwargs) (i : Nat) : Bool :=
  match file[i]? with
  | some m => find m kw
  | none => false

/-- grib.py 110-112: `v_selected` as a list of short names. -/
def shortNames (c : Cond) : List Str :=
  let name : KV → List Str := fun v => match v with
    | .str s => [s]
    | .int z => [Str.ofInt z]
  match c with
  | .eq v => name v
  | .mem l => l.flatMap name
  | .pred _ => []

/-- grib.py 109, 116-117: `v_pert`; `-1` when not given. -/
def pertOf (kw : Kwargs) : Int :=
  match Dict.get? kw "perturbationNumber".toList with
  | some (.eq (.int z)) => z
  | _ => -1

/-- The messages visited by `scan_grib` (grib.py 113-136). -/
def visited (file : List (GMsg α)) (src : Source) (kw : Kwargs) (names : List Str) : List Nat :=
  match src with
  | .index _ =>
    names.flatMap fun v => (List.range file.length).filter fun i =>
      match file[i]? with
      | some m => decide (m.shortName = v) &&
          (decide (pertOf kw = -1) ||
            decide (Dict.get? m.other "perturbationNumber".toList = some (.int (pertOf kw))))
      | none => false
  | .file pos => (List.range file.length).filter fun i => decide (pos ≤ i)
  | .closed => []

/-- The source after a scan: a file has been read to its end. -/
def srcAfter (file : List (GMsg α)) : Source → Source
  | .file _ => .file file.length
  | s => s

/-- grib.py 107-137 (`scan_grib`): handles paired with message positions. A missing `shortName` raises
`KeyError`. -/
def scan (file : List (GMsg α)) (r : Reader) (kw : Kwargs) : Py (List (Nat × Nat)) × Reader :=
  match Dict.get? kw "shortName".toList with
  | none => (.error .keyError, r)
  | some c =>
    let res := scanLoop (matchAt file kw) (visited file r.src kw (shortNames c)) r.w
    (.ok res.1, { r with src := srcAfter file r.src, w := res.2 })

/-- grib.py 142: is a `startStep` predicate given that excludes step 0? -/
def excludesZero (kw : Kwargs) : Bool :=
  match Dict.get? kw "startStep".toList with
  | some (.pred p) => !p (.int 0)
  | _ => false

/-- `lambda s: s >= 0`. -/
def nonNeg : KV → Bool
  | .int z => decide (0 ≤ z)
  | .str _ => false

/-- grib.py 143: the relaxed arguments. -/
def relaxed (kw : Kwargs) : Kwargs := Dict.set kw "startStep".toList (.pred nonNeg)

/-- grib.py 139-147 (`_get_gids`). The `ValueError` branch (raised by no modelled call) is left out. -/
def getGids (file : List (GMsg α)) (r : Reader) (kw : Kwargs) : Py (List (Nat × Nat)) × Reader :=
  match scan file r kw with
  | (.error e, r1) => (.error e, r1)
  | (.ok g, r1) =>
    if g.length = 0 ∧ excludesZero kw = true then scan file r1 (relaxed kw)
    else (.ok g, r1)

/-- grib.py 216-241 (`_find_start_end_steps`): the loop over the sorted end steps. -/
def findChange (step : Int) (ends starts : List Int) : List Nat → Int × Str → Int × Str
  | [], s => s
  | i :: is, s =>
    let d := ends.getD i 0 - ends.getD (i - 1) 0
    if s.1 = -1 ∧ d ≠ step then
      findChange step ends starts is
        (d, Str.ofInt (starts.getD i 0) ++ '-' :: Str.ofInt (ends.getD i 0))
    else findChange step ends starts is s

/-- Result of `_find_start_end_steps`. -/
structure StepsInfo where
  start : Int
  end_ : Int
  step : Int
  step2 : Int
  changeAt : Str
  deriving DecidableEq

/-- grib.py 216-241 (`_find_start_end_steps`) on the (start, end) steps of the messages; `min` of an
empty sequence raises `ValueError`. -/
def findStartEnd (ms : List (Int × Int)) : Py StepsInfo :=
  match ms.map (·.1), ms.map (·.2) with
  | [], _ => .error .valueError
  | _, [] => .error .valueError
  | s :: ss, e :: es =>
    let ends := sortedBy id (e :: es)
    let starts := sortedBy id (s :: ss)
    let step := if 1 < ends.length then ends.getD 1 0 - ends.getD 0 0 else ends.getD 0 0 - starts.getD 0 0
    let c := if 1 < ends.length
      then findChange step ends starts ((List.range ends.length).filter (2 ≤ ·)) (-1, [])
      else (-1, [])
    .ok ⟨ss.foldl min s, es.foldl max e, step, c.1, c.2⟩

/-- exceptions.py 8 (`NO_MESSAGES`). -/
def NO_MESSAGES : Nat := 3000

/-- the handle of every entry is read. -/
def useAll (w : World) (g : List (Nat × Nat)) : World := g.foldl (fun w p => w.use p.1) w

/-- the handle of every entry is released. -/
def releaseAll (w : World) (hs : List Nat) : World := hs.foldl World.release w

/-- (startStep, endStep) of the selected messages. -/
def stepsOf (file : List (GMsg α)) (g : List (Nat × Nat)) : List (Int × Int) :=
  g.filterMap fun p => (file[p.2]?).map fun m => (m.startStep, m.endStep)

/-- grib.py 243-262 (`get_grib_info`): reads all handles, then releases them. -/
def gribInfo (file : List (GMsg α)) (r : Reader) (kw : Kwargs) : Py StepsInfo × Reader :=
  match getGids file r kw with
  | (.error e, r1) => (.error e, r1)
  | (.ok g, r1) =>
    if g.length > 0 then
      let w1 := useAll r1.w g
      match findStartEnd (stepsOf file g) with
      | .error e => (.error e, { r1 with w := w1 })
      | .ok i =>
        let w2 := releaseAll w1 (g.map (·.1))
        (.ok i, { r1 with stepGrib := i.step, stepGrib2 := i.step2, changeStepAt := i.changeAt, w := w2 })
    else (.error (.app NO_MESSAGES), r1)

/-- Loop state of `select_messages` (grib.py 170-172). -/
structure SelSt (α : Type) where
  inputStep : Int
  grid2 : Bool
  ext : Option Nat
  first : Dict Step α
  second : Dict Step α

/-- grib.py 173-202: one message. `nj0` is `grid.num_points_along_meridian` (of the first message);
`grid.get_2nd_resolution()` is `None` during the loop. -/
def selStep (nj0 stepGrib2 : Int) (changeAt : Str) (st : SelSt α) (p : Nat × GMsg α) : SelSt α :=
  let m := p.2
  let inputStep := if Str.ofInt m.startStep ++ '-' :: Str.ofInt m.endStep = changeAt then stepGrib2
    else st.inputStep
  let key : Step := ⟨m.startStep, m.endStep, m.nj, inputStep, m.level⟩
  let grid2 := if m.nj ≠ nj0 then true else st.grid2
  let ext := if m.nj ≠ nj0 then some p.1 else st.ext
  if grid2 = false then { st with inputStep, grid2, ext, first := Dict.set st.first key m.values }
  else if m.nj ≠ nj0 then { st with inputStep, grid2, ext, second := Dict.set st.second key m.values }
  else { st with inputStep, grid2, ext }

/-- What `select_messages` returns: the two groups, and the step key at which the resolution changes
(`min` by start step). -/
structure Selection (α : Type) where
  first : Dict Step α
  second : Dict Step α
  change : Option Step

/-- `min(keys)` by `Step.__lt__` (grib.py 206): the first key with the smallest start step. -/
def minKey : List Step → Option Step
  | [] => none
  | k :: ks => some (ks.foldl (fun a b => if b.pyLt a then b else a) k)

/-- grib.py 161-211: grouping of the selected messages. -/
def group (stepGrib stepGrib2 : Int) (changeAt : Str) (ext : Option Nat) (ms : List (Nat × GMsg α)) :
    Selection α × Option Nat :=
  match ms with
  | [] => (⟨[], [], none⟩, ext)
  | p :: _ =>
    let st := ms.foldl (selStep p.2.nj stepGrib2 changeAt) ⟨stepGrib, false, ext, [], []⟩
    (⟨st.first, st.second, if st.grid2 then minKey (Dict.keys st.second) else none⟩, st.ext)

/-- The messages behind a list of handles. -/
def msgsOf (file : List (GMsg α)) (g : List (Nat × Nat)) : List (Nat × GMsg α) :=
  g.filterMap fun p => (file[p.2]?).map fun m => (p.1, m)

/-- grib.py 149-214 (`select_messages`). -/
def select (file : List (GMsg α)) (r : Reader) (kw : Kwargs) : Py (Selection α) × Reader :=
  match getGids file r kw with
  | (.error e, r1) => (.error e, r1)
  | (.ok g, r1) =>
    let r2 : Reader := { r1 with selected := some (g.map (·.1)) }
    if g.length > 0 then
      let res := group r2.stepGrib r2.stepGrib2 r2.changeStepAt r2.ext (msgsOf file g)
      (.ok res.1, { r2 with main := (g.map (·.1)).head?, ext := res.2, w := useAll r2.w g })
    else (.error (.app NO_MESSAGES), r2)

/-- grib.py 72-82 (`close`); iterating over `None` on a second call raises `TypeError`. -/
def close (r : Reader) : Py Unit × Reader :=
  match r.selected with
  | none => (.error .typeError, r)
  | some hs => (.ok (), { r with selected := none, src := .closed, w := releaseAll r.w hs })

/-- grib.py 264-270 (`get_gids_for_grib_intertable`): reads the main handle and the one of the second
resolution; without a selection eccodes rejects `None`. -/
def aux (r : Reader) : Py (Nat × Option Nat) × Reader :=
  match r.main with
  | none => (.error .typeError, r)
  | some h =>
    let w1 := r.w.use h
    let w2 := match r.ext with
      | none => w1
      | some h2 => w1.use h2
    (.ok (h, r.ext), { r with w := w2 })

/-- The public operations of a reader. -/
inductive Op where
  | info (kw : Kwargs)
  | select (kw : Kwargs)
  | aux
  | close

/-- One operation, result dropped. -/
def step (file : List (GMsg α)) (r : Reader) : Op → Reader
  | .info kw => (gribInfo file r kw).2
  | .select kw => (select file r kw).2
  | .aux => (Reader.aux r).2
  | .close => (close r).2

/-- A history of operations. -/
def run (file : List (GMsg α)) (r : Reader) (ops : List Op) : Reader := ops.foldl (step file) r

end Reader
end PyG2P
