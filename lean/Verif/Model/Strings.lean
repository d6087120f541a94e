import Verif.Model.UserConf

/-! # Strings, commands and file names — src/pyg2p/util/strings.py, src/pyg2p/util/files.py 82-110,
src/pyg2p/main/api.py 28-79 -/

namespace PyG2P

/-- strings.py 6-19 (`to_boolean`): numbers cannot be indexed, an empty string has no first character. -/
def toBoolean : JVal → Py Bool
  | .null => .ok false
  | .bool b => .ok b
  | .str [] => .error .indexError
  | .str (c :: _) => .ok (decide (c.toUpper = 'T') || decide (c.toUpper = 'Y'))
  | .int _ => .error .typeError
  | .num _ => .error .typeError

namespace Str

/-- `s.replace(old, new)` for a non-empty `old`; `skip` counts the characters of the current occurrence
still to be dropped. -/
def replaceGo (old new : Str) : Nat → Str → Str
  | _, [] => []
  | 0, c :: s =>
    if old.isPrefixOf (c :: s) then new ++ replaceGo old new (old.length - 1) s
    else c :: replaceGo old new 0 s
  | k + 1, _ :: s => replaceGo old new k s

/-- `s.replace(old, new)`. -/
def replaceAll (old new s : Str) : Str := replaceGo old new 0 s

/-- `re.split(' |=', s)`. -/
def splitArgs : Str → List Str
  | [] => [[]]
  | x :: s =>
    if x = ' ' ∨ x = '=' then [] :: splitArgs s
    else match splitArgs s with
      | [] => [[x]]
      | w :: ws => (x :: w) :: ws

/-- the text of the items, one blank between two. -/
def joinBlank : List Str → Str
  | [] => []
  | [w] => w
  | w :: ws => w ++ ' ' :: joinBlank ws

end Str

/-- `zip(c[0::2], c[1::2])`. -/
def pairUp : List Str → List (Str × Str)
  | a :: b :: r => (a, b) :: pairUp r
  | _ => []

/-- strings.py 31-33 (`to_argdict`). -/
def toArgdict (s : Str) : Dict Str Str := Dict.ofPairs (pairUp (Str.splitArgs (Str.stripBy Str.isSpace s)))

/-- State of the csv reader within a row: at the start of a field, in a field, in a quoted field, after a
quote in a quoted field; the field so far in reverse. -/
inductive CsvSt where
  | start
  | plain (acc : Str)
  | quoted (acc : Str)
  | quote (acc : Str)

/-- `csv.reader(..., delimiter=' ')` on one line (no line breaks). -/
def csvGo : CsvSt → Str → List Str
  | .start, [] => [[]]
  | .plain acc, [] => [acc.reverse]
  | .quoted acc, [] => [acc.reverse]
  | .quote acc, [] => [acc.reverse]
  | .start, c :: s =>
    if c = ' ' then [] :: csvGo .start s
    else if c = '"' then csvGo (.quoted []) s
    else csvGo (.plain [c]) s
  | .plain acc, c :: s => if c = ' ' then acc.reverse :: csvGo .start s else csvGo (.plain (c :: acc)) s
  | .quoted acc, c :: s => if c = '"' then csvGo (.quote acc) s else csvGo (.quoted (c :: acc)) s
  | .quote acc, c :: s =>
    if c = '"' then csvGo (.quoted ('"' :: acc)) s
    else if c = ' ' then acc.reverse :: csvGo .start s
    else csvGo (.plain (c :: acc)) s

/-- strings.py 22-28 (`to_argv`): the first row without empty items (CPython has one empty string, so that
`is not ''` tells empty strings apart); no row at all for an empty text. -/
def toArgv (s : Str) : Py (List Str) :=
  if s = [] then .error .indexError else .ok ((csvGo .start s).filter fun w => decide (w ≠ []))

/-- api.py 54-67 (`Command.__init__`): the dictionary of options; `none` has no `lstrip`. -/
def commandInit (cmd : Option Str) (params : List (Str × Str)) : Py (Dict Str Str) :=
  match cmd with
  | none => .error .attributeError
  | some s =>
    let s1 := Str.stripBy Str.isSpace (s.dropWhile fun c => decide (c ∈ "pyg2p".toList))
    let s2 := params.foldl (fun t p => Str.replaceAll ('{' :: (p.1 ++ ['}'])) p.2 t) s1
    let d := if s2 = [] then [] else toArgdict (s2 ++ " -A".toList)
    .ok (if "-l".toList ∈ Dict.keys d then d else Dict.set d "-l".toList "ERROR".toList)

/-- api.py 50-52 (`with_...`): one option set, `''` for a flag. -/
def commandSet (d : Dict Str Str) (opt value : Str) : Dict Str Str := Dict.set d opt value

/-- api.py 70-74 (`__str__`). -/
def commandStr (d : Dict Str Str) : Str :=
  let d' := d.insertionSort fun a b => a.1 ≤ b.1
  "pyg2p ".toList ++
    Str.stripBy Str.isSpace (d'.flatMap fun p => p.1 ++ ' ' :: (p.2 ++ [' ']))

/-- api.py 76-79 (`run`): the arguments given to the program. -/
def commandArgv (d : Dict Str Str) : Py (List Str) := (toArgv (commandStr d)).map (·.drop 1)

/-! ## Names of table files (files.py 82-110) -/

/-- `os.path.splitext(name)[0]` for a name without `/`: cut at the last dot, unless only dots precede it. -/
def withoutExt (name : Str) : Str :=
  match name.reverse.dropWhile (· ≠ '.') with
  | [] => name
  | _ :: r => if r.all (· == '.') then name else r.reverse

/-- the length of the run of digits at the start. -/
def digitRun (s : Str) : Nat := (s.takeWhile Str.isDigitChar).length

/-- `re.sub('([0-9]{8,10})', '', s)`; `skip` as in `replaceGo`. -/
def subLongGo : Nat → Str → Str
  | _, [] => []
  | 0, c :: s =>
    if 8 ≤ digitRun (c :: s) then subLongGo (min 10 (digitRun (c :: s)) - 1) s else c :: subLongGo 0 s
  | k + 1, _ :: s => subLongGo k s

/-- files.py 98-110 (`normalize_filename`). -/
def normalizeFilename (name : Str) : Str :=
  let a := Str.lower (withoutExt name)
  let b := if subLongGo 0 a = [] then a else subLongGo 0 a
  let c := b.filter fun x => !(x == '-' || x == '_' || x == '.')
  if c.length < 3 then name.map fun x => if x = '.' then '_' else x else c.take 10

end PyG2P
