import Verif.Model.Conversion

/-! # Grid identifiers and message sets — src/pyg2p/__init__.py 60-209 -/

namespace PyG2P

/-- The GRIB keys a grid identifier is made of (src/pyg2p/__init__.py 69-96). `none` stands for a key
that is missing or not defined in the message. `gridType`, `numberOfValues` and the first longitude are
defined in every GRIB message. -/
structure GeoKeys where
  longFirst : ℚ
  longLast : Option ℚ
  ni : Option Int
  nj : Option Int
  numberOfValues : Int
  gridType : Str

namespace GeoKeys

/-- `('%.4f' % x).rstrip('0').rstrip('.')`, src/pyg2p/__init__.py 108-109. -/
def longText (x : ℚ) : Str := Str.rstrip '.' (Str.rstrip '0' (Str.fmt4 x))

/-- src/pyg2p/__init__.py 105-106: `'M'` when missing. -/
def intText : Option Int → Str
  | none => ['M']
  | some z => Str.ofInt z

/-- src/pyg2p/__init__.py 104-111 (`_build_id`). -/
def buildId (g : GeoKeys) : Str :=
  longText g.longFirst ++ '$' ::
  ((match g.longLast with
    | none => ['M']
    | some x => longText x) ++ '$' ::
  (intText g.ni ++ '$' ::
  (intText g.nj ++ '$' ::
  (Str.ofInt g.numberOfValues ++ '$' :: g.gridType))))

end GeoKeys

/-- A `GribGridDetails` object: identifier, points along a meridian and the second resolution, if set
(src/pyg2p/__init__.py 78-118). `second = some (id of the second grid, change step)`. -/
structure Grid where
  gridId : Str
  pointsMeridian : Int
  second : Option (Str × Step)

/-- src/pyg2p/__init__.py 113-118 (`set_2nd_resolution`). -/
def Grid.set2nd (g g2 : Grid) (s : Step) : Grid :=
  { g with second := some (g2.gridId, s), pointsMeridian := g2.pointsMeridian }

/-- A `Messages` object (src/pyg2p/__init__.py 146-161); `n`, `m` cells in the two resolutions.
Unit, level and step descriptions are not modelled. -/
structure MsgSet (n m : Nat) where
  first : Dict Step (Arr n)
  second : Dict Step (Arr m)
  mv : Num
  grid : Grid
  firstStep : Step

namespace MsgSet
variable {n m : Nat}

/-- src/pyg2p/__init__.py 148-161 (`Messages.__init__`): `sorted(keys, key=end_step)[0]`. -/
def init (values : Dict Step (Arr n)) (mv : Num) (grid : Grid) (second : Dict Step (Arr m)) :
    Py (MsgSet n m) := do
  let f ← pyGet (sortedBy Step.endStep (Dict.keys values)) 0
  .ok ⟨values, second, mv, grid, f⟩

/-- src/pyg2p/__init__.py 163-166 (`append_2nd_res_messages`): maps of a second resolution `s` may have had are
replaced. -/
def append2nd {q k : Nat} (s : MsgSet n q) (o : MsgSet m k) : MsgSet n m :=
  ⟨s.first, o.first, s.mv, s.grid.set2nd o.grid o.firstStep, s.firstStep⟩

/-- src/pyg2p/__init__.py 193-194 (`have_resolution_change`). -/
def haveResolutionChange (s : MsgSet n m) : Bool := s.grid.second.isSome

/-- src/pyg2p/__init__.py 196-197 (`change_resolution_step`). -/
def changeResolutionStep (s : MsgSet n m) : Option Step := s.grid.second.map (·.2)

/-- a dict comprehension `{key: converter.convert(values) ...}` (src/pyg2p/__init__.py 204-205). -/
def convertDict (ne : NumExpr) (c : Converter) (d : Dict Step (Arr n)) : Py (Dict Step (Arr n)) :=
  d.mapM fun p => do
    let a ← Converter.convert ne c p.2
    .ok (p.1, a)

/-- src/pyg2p/__init__.py 199-206 (`apply_conversion`). -/
def applyConversion (ne : NumExpr) (c : Converter) (s : MsgSet n m) : Py (MsgSet n m) := do
  let c := c.setMissingValue s.mv
  let f ← convertDict ne c s.first
  let g ← convertDict ne c s.second
  .ok { s with first := f, second := g }

/-- src/pyg2p/__init__.py 208-209 (`__len__`). -/
def len (s : MsgSet n m) : Nat := s.first.length + s.second.length

end MsgSet

/-- `datetime.strptime(text, '%H')` on a text of one or two digits (the pattern
`2[0-3]|[0-1]\d|\d`; characters left over raise `ValueError`). -/
def strptimeHour : Str → Py Nat
  | [a] => if a.isDigit then .ok (a.toNat - 48) else .error .valueError
  | [a, b] =>
    if (a = '2' ∧ b.isDigit = true ∧ b.toNat ≤ 51) ∨ ((a = '0' ∨ a = '1') ∧ b.isDigit = true) then
      .ok (10 * (a.toNat - 48) + (b.toNat - 48))
    else .error .valueError
  | _ => .error .valueError

/-- readers/grib.py 168, 211 and src/pyg2p/__init__.py 157: the hour of the reference time, from the
GRIB key `dataTime` (an integer HHMM): `strptime(f'{dataDate}{str(dataTime)[:2]}', '%Y%m%d%H')`. The
date part (eight digits) is parsed before the hour and passed through. -/
def referenceHour (dataTime : Nat) : Py Nat := strptimeHour ((Str.ofNat dataTime).take 2)

end PyG2P
