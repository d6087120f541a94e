import Verif.Model.ScipyGeom

/-! # Choice of the corners in the bilinear method —
src/pyg2p/main/interpolation/scipy_interpolation_lib.py 162-252, 1079-1334

Exact rational coordinates. For a target cell the surroundings are arguments: the coordinates `get_correct_lats_lons`
gives a source point (`Model.Sphere`), the answers of the KD-tree, the vertex `getNonConvexVertex` returns
(`Model.Angle`), the root `fsolve` returns. Printing is dropped, except that `nn % 0` raises. -/

namespace PyG2P
namespace ScipyLib

/-! ## Shape of the four corners -/

/-- First element with the largest key (`np.argmax`). -/
def argmaxBy {α : Type} (key : α → ℚ) : List α → Option α
  | [] => none
  | a :: l => some (l.foldl (fun m b => if key m < key b then b else m) a)

/-- lines 167-173: the indexes of corners whose point is that of an earlier corner (`np.unique(..., return_index=True)`
gives first occurrences). -/
def sameAsEarlier (cs : List Corner) : List Nat :=
  (cs.zipIdx.filter fun p => (cs.take p.2).any fun c => decide (c.pt = p.1.pt)).map (·.1.ix)

/-- lines 177-188: `abs(dlat) + 0.01 * abs(dlon)`. -/
def dirKey (t : Pt) (c : Corner) : ℚ := |c.pt.lat - t.lat| + 1 / 100 * |c.pt.lon - t.lon|

/-- lines 180-183, 185-188: while there are more than two, the farthest is given up. -/
def giveUp (t : Pt) : Nat → List Corner → List Nat
  | 0, _ => []
  | fuel + 1, l =>
    if 2 < l.length then
      match argmaxBy (dirKey t) l with
      | none => []
      | some c => c.ix :: giveUp t fuel (l.filter fun d => d.ix ≠ c.ix)
    else []

/-- `corners_points[:, 0] <= lat_in`. -/
def up (t : Pt) (cs : List Corner) : List Corner := cs.filter fun c => decide (c.pt.lat ≤ t.lat)
/-- `corners_points[:, 0] > lat_in`. -/
def down (t : Pt) (cs : List Corner) : List Corner := cs.filter fun c => decide (t.lat < c.pt.lat)

/-- lines 164-190 (`getWrongPointDirection`): the indexes of the wrong points. Every round of the two loops removes a
corner, so as many rounds as corners are enough. -/
def wrongDirection (t : Pt) (cs : List Corner) : List Nat :=
  if sameAsEarlier cs ≠ [] then sameAsEarlier cs
  else giveUp t cs.length (up t cs) ++ giveUp t cs.length (down t cs)

/-- The farther of two corners, first one in doubt (`np.argmax`), and the other one. -/
def farFirst (key : Corner → ℚ) (a b : Corner) : Corner × Corner := if key a < key b then (b, a) else (a, b)

/-- `abs(corners_points[:, 0] - lat_in).min()`. -/
def nearestRow (t : Pt) (cs : List Corner) : ℚ := lmin (cs.map fun c => |c.pt.lat - t.lat|)

/-- lines 195-208 (`getWrongPointGridLikeShape`), for two corners above and two below (`shape_checks_total`: the only
case); for other numbers the indexing fails. -/
def wrongGridLike (t : Pt) (cs : List Corner) : Py (Option Nat) :=
  match up t cs, down t cs with
  | [a, b], [c, d] =>
    let eps := 1 / 10 * nearestRow t cs
    let u := farFirst (fun x => -(x.pt.lat - t.lat)) a b
    let w := farFirst (fun x => x.pt.lat - t.lat) c d
    if eps < |u.1.pt.lat - u.2.pt.lat| then .ok (some u.1.ix)
    else if eps < |w.1.pt.lat - w.2.pt.lat| then .ok (some w.1.ix)
    else .ok none
  | _, _ => .error .indexError

/-- lines 213-252 (`getWrongPointBestGridLikeShape`), again for two and two: the index to replace, and the place where
to look for another point. `corners_points[abs(corners_points[:,3]-i)<0.5][0]` is the corner with index `i`; the corners
have different indexes here. -/
def wrongBestGridLike (t : Pt) (cs : List Corner) : Py (Option (Nat × Pt)) :=
  match argmaxBy (fun c => -|c.pt.lon - t.lon|) cs, up t cs, down t cs with
  | some near, [a, b], [c, d] =>
    let key := fun x : Corner => -|x.pt.lon - near.pt.lon|
    let u := farFirst key a b      -- nearer one first
    let w := farFirst key c d
    let below := w.1.pt.lon - w.2.pt.lon
    let above := u.1.pt.lon - u.2.pt.lon
    if below * above < 0 then
      let e := if |above| ≤ |below| then (w, u) else (u, w)   -- (pair to change, pair to keep)
      if inTriangle t e.2.2.pt u.1.pt w.1.pt then
        .ok (some (e.1.2.ix, ⟨e.1.1.pt.lat, 2 * e.1.1.pt.lon - e.1.2.pt.lon⟩))
      else
        .ok (some (e.2.2.ix, ⟨e.2.1.pt.lat, 2 * e.2.1.pt.lon - e.2.2.pt.lon⟩))
    else .ok none
  | _, _, _ => .error .indexError

/-! ## Replacing corners -/

/-- `indexes[nn, indexes[nn, 0:4] == i] = v`. -/
def putIndex (idx : List Nat) (i v : Nat) : List Nat := idx.map fun j => if j = i then v else j

/-- lines 1092-1093, 1114-1115: the wrong indexes are replaced by the last, the last but one ... of the new ones. -/
def putAll (idx wrong new : List Nat) : Py (List Nat) :=
  (wrong.zipIdx).foldlM (fun idx p =>
    match new.reverse[p.2]? with
    | some v => .ok (putIndex idx p.1 v)
    | none => .error .indexError) idx

/-- What the search for the corners of one cell asks for: `coord i` the coordinates of source point `i` as seen from the
cell (`none`: no such point), `near k` the `k` nearest source points of the cell, `nearTo p k` those of another place,
`nonConvex` the vertex given up when the quadrilateral is not convex (`none`: `assert` fails), `skip` whether the source
grid is not global and the cell is outside its box, `beyond` whether the cell is north or south of all source points. -/
structure Around where
  target : Pt
  coord : Nat → Option Pt
  near : Nat → List Nat
  nearTo : Pt → Nat → List Nat
  nonConvex : Corner → Corner → Corner → Corner → Option Nat
  skip : Bool
  beyond : Bool

/-- lines 1080-1097 (`replaceIndex`): new indexes and number of additional points. -/
def replaceIndex (E : Around) (wrong idx : List Nat) (extra : Nat) : Py (List Nat × Nat) := do
  let new := (E.near (4 + (extra + wrong.length))).filter fun i => i ∉ idx
  let idx' ← putAll idx wrong new
  .ok (idx', extra + wrong.length)

/-- lines 1106-1123 (`replaceIndexCloseToPoint`): new indexes, and whether they are four. -/
def replaceClose (E : Around) (wrong : List Nat) (place : Pt) (idx : List Nat) : Py (List Nat × Bool) := do
  let idx' ← putAll idx wrong (E.nearTo place wrong.length)
  .ok (idx', decide (idx'.dedup.length = 4))

/-! ## The search -/

/-- The four corners `self.p1` ... `self.p4`. -/
abbrev Quad := Corner × Corner × Corner × Corner

/-- Local state of the search: the indexes (`indexes[nn]`), `additional_points`, `additional_checks_completed`, and the
corners held by the object, which live longer than the cell. -/
structure Search where
  idx : List Nat
  extra : Nat
  checked : Bool
  held : Option Quad
  deriving DecidableEq

/-- How a round ends: another round; the quadrilateral found; the cell left out (weights NaN); only the nearest point
taken. -/
inductive Round where
  | again (s : Search)
  | found (s : Search)
  | leftOut (s : Search)
  | single (s : Search)
  deriving DecidableEq

/-- lines 95-98: a missing source point raises. -/
def cornerAt (E : Around) (i : Nat) : Py Corner :=
  match E.coord i with
  | some p => .ok ⟨p, i⟩
  | none => .error .indexError

/-- lines 1211-1216: the corners of the current indexes. -/
def cornersOf (E : Around) (idx : List Nat) : Py (List Corner) := idx.mapM (cornerAt E)

/-- lines 1258-1292: the part of a round for a shape that passed the checks. -/
def roundQuad (E : Around) (rotated : Bool) (s : Search) (cs : List Corner) : Py Round :=
  match clockwise cs with
  | none => .error .valueError
  | some (p1, p2, p3, p4) =>
    let s := { s with checked := true, held := some (p1, p2, p3, p4) }
    if rotated = false ∧ isConvex p1.pt p2.pt p3.pt p4.pt = false then
      match E.nonConvex p1 p2 p3 p4 with
      | none => .error .valueError        -- AssertionError
      | some i => do
        let (idx, extra) ← replaceIndex E [i] s.idx s.extra
        .ok (.again { s with idx := idx, extra := extra })
    else if inQuadrilateral E.target p1.pt p2.pt p3.pt p4.pt then .ok (.found s)
    else do
      let (idx, extra) ← replaceIndex E [s.idx.getD 3 0] s.idx s.extra
      .ok (.again { s with idx := idx, extra := extra })

/-- lines 1229-1257: the part of a round with the checks of the shape. -/
def roundChecks (E : Around) (rotated : Bool) (s : Search) (cs : List Corner) : Py Round :=
  let wrong := wrongDirection E.target cs
  if wrong ≠ [] then
    if E.beyond then do
      let (idx, four) ← replaceClose E wrong ⟨180 - E.target.lat, E.target.lon⟩ s.idx
      if four then .ok (.again { s with idx := idx }) else .ok (.single s)
    else do
      let (idx, extra) ← replaceIndex E wrong s.idx s.extra
      .ok (.again { s with idx := idx, extra := extra })
  else do
    match ← wrongGridLike E.target cs with
    | some i =>
      let (idx, extra) ← replaceIndex E [i] s.idx s.extra
      .ok (.again { s with idx := idx, extra := extra })
    | none =>
      match ← wrongBestGridLike E.target cs with
      | some (i, place) =>
        let (idx, _) ← replaceClose E [i] place s.idx
        .ok (.again { s with idx := idx })
      | none => roundQuad E rotated s cs

/-- lines 1195-1292: one round of the loop. -/
def oneRound (E : Around) (rotated : Bool) (s : Search) : Py Round := do
  let cs ← cornersOf E s.idx
  if E.skip then .ok (.leftOut s)
  else if s.checked then roundQuad E rotated s cs
  else roundChecks E rotated s cs

/-- lines 1195-1292: the loop; `none` when it does not end. A search that uses up its retries ends with `again`. -/
def search (E : Around) (rotated : Bool) (retries : Nat) (s : Search) : Option (Py Round) :=
  if s.extra < retries then
    match oneRound E rotated s with
    | .error e => some (.error e)
    | .ok (.again s') => search E rotated retries s'
    | .ok r => some (.ok r)
  else some (.ok (.again s))
partial_fixpoint

/-- A row of the table (weights and indexes), and the corners the object holds afterwards. -/
abbrev RowOut := List (Num × Nat) × Option Quad

/-- lines 1309-1321: the row from the corners held by the object; `root` is the answer of `fsolve`. Without corners
(`self.p1` never set) `AttributeError`. -/
def rowOf (root : Quad → ℚ × ℚ) (held : Option Quad) : Py RowOut :=
  match held with
  | none => .error .attributeError
  | some q =>
    let w := bilinearWeights (root q)
    .ok ([(.fin w.1, q.1.ix), (.fin w.2.1, q.2.1.ix), (.fin w.2.2.1, q.2.2.1.ix), (.fin w.2.2.2, q.2.2.2.ix)], held)

/-- lines 1298-1321 and the skipped cells (1223-1227, 1241-1246). -/
def finishRow (root : Quad → ℚ × ℚ) : Py Round → Py RowOut
  | .error e => .error e
  | .ok (.leftOut s) => .ok (s.idx.mapIdx fun j i => (if j = 0 then .nan else 0, i), s.held)
  | .ok (.single s) => .ok (s.idx.mapIdx fun j i => (if j = 0 then 1 else 0, i), s.held)
  | .ok (.found s) => rowOf root s.held
  | .ok (.again s) => rowOf root s.held

/-- A target cell: its surroundings, the answer of `fsolve` for given corners, and the distances and indexes of the four
nearest source points (`indexes[nn]`, `distances[nn]`). -/
structure BCell where
  around : Around
  root : Quad → ℚ × ℚ
  row : Nbrs

/-- lines 1156-1321: one cell, with the corners held from earlier cells. With a rotated source grid the retries are 20
(1190-1194). -/
def bilinearCell (rotated : Bool) (bound : ℚ) (retries : Nat) (held : Option Quad) (c : BCell) : Option (Py RowOut) :=
  let d0 := (c.row.headD (0, 0)).1
  let idx := c.row.map (·.2)
  if d0 ≤ 1 / 10000000000 then some (.ok (idx.mapIdx fun j i => (if j = 0 then 1 else 0, i), held))
  else if bound < d0 then some (.ok (idx.mapIdx fun j i => (if j = 0 then .nan else 0, i), held))
  else (search c.around rotated (if rotated then 20 else retries) ⟨idx, 0, rotated, held⟩).map (finishRow c.root)

/-- lines 1125-1334 (`_build_weights_bilinear`): the loop over the cells. -/
def bilinearLoop (step : Nat) (rotated : Bool) (bound : ℚ) (retries : Nat) :
    Option Quad → List BCell → Option (Py (List (List (Num × Nat))))
  | _, [] => some (.ok [])
  | held, c :: cs =>
    if step = 0 then some (.error .zeroDivision)
    else
      match bilinearCell rotated bound retries held c with
      | none => none
      | some (.error e) => some (.error e)
      | some (.ok (r, held')) =>
        match bilinearLoop step rotated bound retries held' cs with
        | none => none
        | some (.error e) => some (.error e)
        | some (.ok rs) => some (.ok (r :: rs))

/-- lines 1125-1334: `rows`: the rows of the target (of the block, with splits); a new object holds no corners. -/
def buildBilinear (tty rotated : Bool) (bound : ℚ) (rows : Nat) (cells : List BCell) :
    Option (Py (List (List (Num × Nat)))) :=
  bilinearLoop (GribLib.progressStep tty cells.length) rotated bound rows none cells

end ScipyLib
end PyG2P
