import Verif.Model.ScipyNear
import Verif.Model.Tables

/-! # Options and lookups of the CDD method — src/pyg2p/main/interpolation/scipy_interpolation_lib.py 835-919

Exact rationals. The weight functions themselves are in `Model.ScipyWeights`; here they are arguments. -/

namespace PyG2P
namespace ScipyLib

/-- line 468: `np.clip((..).astype(int), 0, len - 1)` along one axis of the CDD map: `origin`, `res` the first target
coordinate and the step, `x` the coordinate of the station. Division by zero is not modelled (`res ≠ 0`). -/
def cddIndex (origin res x : ℚ) (len : Nat) : Int := max 0 (min (Str.truncInt ((origin - x) / res)) ((len : Int) - 1))

/-- lines 899-902: origins and steps for `NewEtAl`, taken from the coordinates of the block of rows being interpolated
(`interpolate_split` 617-619): `(LatOrigin, TargetLatRes, LonOrigin, TargetLonRes)`. -/
def cddOrigins (lats lons : List (List ℚ)) : Py (ℚ × ℚ × ℚ × ℚ) :=
  match lons, lats with
  | (o :: o' :: _) :: _, (a :: _) :: (b :: _) :: _ => .ok (a, a - b, o, o - o')
  | _, _ => .error .indexError

/-- lines 466-468: the CDD value used for a station, `org` as returned by `cddOrigins`. -/
def cddValue (cdd : List (List ℚ)) (org : ℚ × ℚ × ℚ × ℚ) (s : ℚ × ℚ) : Py ℚ :=
  let row := cdd.getD (cddIndex org.1 org.2.1 s.1 cdd.length).toNat []
  match row[(cddIndex org.2.2.1 org.2.2.2 s.2 row.length).toNat]? with
  | some v => .ok v
  | none => .error .indexError

/-- lines 466-468, 898-904: the CDD values of the stations, in metres (line 846). -/
def newLookup (cdd : List (List ℚ)) (lats lons : List (List ℚ)) (st : List (ℚ × ℚ)) : Py (List ℚ) := do
  let org ← cddOrigins lats lons
  st.mapM (cddValue cdd org)

/-- A value of a JSON object. -/
inductive OptVal where
  | num (q : ℚ)
  | str (s : String)
  deriving DecidableEq

/-- What is used of the options: `m_const`, `min_num_of_station`, `radius_ratio`, `weights_mode`. -/
structure CddOptions where
  m : OptVal
  minStations : OptVal
  ratio : OptVal
  weights : OptVal
  deriving DecidableEq

/-- lines 885-894: the options of `MixHofstraShepard`; a JSON object keeps the order of the file, and its values are
unpacked in that order. -/
def cddOptions : Option (List (String × OptVal)) → Py CddOptions
  | none => .ok ⟨.num 4, .num 4, .num (1 / 3), .str "All"⟩
  | some d =>
    match d.map (·.2) with
    | [a, b, c, e] => .ok ⟨a, b, c, e⟩
    | _ => .error .valueError

/-- The weights of the block for each mode; an argument each. -/
structure CddFuns (S : Type) where
  hofstra : List ℚ → S
  mix : List ℚ → CddOptions → S
  newetal : List ℚ → S

/-- lines 866-907: the distance weights of a block and the weights mode. The failed assertions (868-871, 880-883) and
the unknown mode (907) only construct an exception; for an unknown mode `s` is not assigned (UnboundLocalError at 917 or
928). `distances[...] > CDD_map` and `CDD_map.reshape(-1, 1)` (395, 398-401, 430-447) need a map with as many values as
the block has cells; the broadcasting of a map with one value is not modelled. -/
def cddS {S : Type} (F : CddFuns S) (mode : String) (opts : Option (List (String × OptVal)))
    (cdd lats lons : List (List ℚ)) (st : List (ℚ × ℚ)) : Py (S × OptVal) :=
  let cells := lats.flatten.length
  if mode = "Hofstra" then
    if cdd.flatten.length = cells then .ok (F.hofstra cdd.flatten, .str "All") else .error .valueError
  else if mode = "MixHofstraShepard" then do
    let o ← cddOptions opts
    if cdd.flatten.length = cells then .ok (F.mix cdd.flatten o, o.weights) else .error .valueError
  else if mode = "NewEtAl" then do
    let l ← newLookup cdd lats lons st
    .ok (F.newetal l, .str "All")
  else .error .unboundLocal

/-- lines 615-663, 774-1076 (`interpolate_split`, mode `cdd`): a block of target cells given by latitude and longitude;
`finish` makes weights and indexes from the distance weights and the weights mode. -/
def cddPart {S W : Type} (F : CddFuns S) (finish : S → OptVal → List (List (ℚ × ℚ)) → Py (Part W)) (mode : String)
    (opts : Option (List (String × OptVal))) (cdd : List (List ℚ)) (st : List (ℚ × ℚ)) (grid : List (List (ℚ × ℚ))) :
    Py (Part W) := do
  let (s, m) ← cddS F mode opts cdd (grid.map (·.map (·.1))) (grid.map (·.map (·.2))) st
  finish s m grid

/-- line 917, one row `s`: `perm` is the row of `np.argpartition(s, 10, axis=1)`, and the positions at all but its last
ten entries are set to zero. -/
def onlyTop10 (s : List ℚ) (perm : List Nat) : List ℚ :=
  s.mapIdx fun i x => if i ∈ perm.take (perm.length - 10) then 0 else x

/-- The contract of `np.argpartition(s, k)` (numpy reference): a permutation of the positions; the element at position
`k` is in its sorted place, what comes before is not larger, what comes after is not smaller. -/
def IsArgPartition (s : List ℚ) (k : Nat) (perm : List Nat) : Prop :=
  perm.Perm (List.range s.length) ∧
    ∀ (i j : Nat) a b, perm[i]? = some a → perm[j]? = some b →
      (i ≤ k ∧ k ≤ j) → s.getD a 0 ≤ s.getD b 0

/-- interpolation/__init__.py 30-64, 211-213: the settings of an interpolation that decide the weights, besides the
data; `target` is the identifier of the target maps. -/
structure Settings where
  mode : Str
  cddMap : Str
  cddMode : String
  cddOptions : Option (List (String × OptVal))
  rotatedTarget : Bool
  splits : Option Nat
  gridId : Str
  target : Str
  targetSize : Nat
  source : Str
  create : Bool
  write : Py Unit
  userDir : Option Str
  globalDir : Option Str

/-- interpolation/__init__.py 40, 46-49, 67-99: the run of the table store these settings make (an unknown mode is
refused before). -/
def Settings.run (s : Settings) : TblRun :=
  { create := s.create, write := s.write, userDir := s.userDir, globalDir := s.globalDir, source := s.source
    targetSize := s.targetSize, suffix := (tableSuffix s.mode).getD [], gridId := s.gridId, target := s.target }

end ScipyLib
end PyG2P
