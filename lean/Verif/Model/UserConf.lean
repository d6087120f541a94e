import Verif.Model.Context

/-! # User variables — src/pyg2p/main/config.py 22-81 -/

namespace PyG2P

namespace Str

/-- a white-space character of `str.strip()` (ASCII). -/
def isSpace (c : Char) : Bool :=
  c == ' ' || c == '\t' || c == '\n' || c == '\r' || c == '\x0b' || c == '\x0c'

/-- `s.strip(chars)`, the characters given as a test. -/
def stripBy (p : Char → Bool) (s : Str) : Str := ((s.dropWhile p).reverse.dropWhile p).reverse

/-- `s.split(c)`: at least one piece. -/
def splitOn (c : Char) : Str → List Str
  | [] => [[]]
  | x :: s =>
    if x = c then [] :: splitOn c s
    else match splitOn c s with
      | [] => [[x]]
      | w :: ws => (x :: w) :: ws

end Str

/-- The characters of `strip('" \t')` (config.py 62). -/
def isQuoteSpace (c : Char) : Bool := c == '"' || c == ' ' || c == '\t'

/-- config.py 59-62: one line of a `.conf` file added to the properties; a line without `=` raises
`IndexError`. -/
def loadLine (props : Dict Str Str) (line : Str) : Py (Dict Str Str) :=
  let l := Str.stripBy Str.isSpace line
  if l = [] ∨ l.head? = some '#' then .ok props
  else do
    let kv := Str.splitOn '=' l
    let k ← pyGet kv 0
    let v ← pyGet kv 1
    .ok (Dict.set props (Str.stripBy Str.isSpace k) (Str.stripBy isQuoteSpace v))

/-- config.py 55-63 (`load_properties`) on the lines of the file. -/
def loadProperties (lines : List Str) : Py (Dict Str Str) := lines.foldlM loadLine []

/-- config.py 43-47: the `.conf` files in the order of `os.listdir`. -/
def loadUserConf (confs : List (List Str)) : Py (Dict Str Str) :=
  confs.foldlM (fun vars lines => do
    let p ← loadProperties lines
    .ok (Dict.update vars p)) []

/-! ## Substitution (config.py 65-81) -/

/-- a character of `[a-zA-Z_]`. -/
def isVarChar (c : Char) : Bool :=
  decide ('a' ≤ c ∧ c ≤ 'z') || decide ('A' ≤ c ∧ c ≤ 'Z') || c == '_'

/-- does a match of `[a-zA-Z_]*}` begin here? -/
def varTail : Str → Bool
  | [] => false
  | c :: s => if c = '}' then true else if isVarChar c then varTail s else false

/-- does a match of `[a-zA-Z_]+}` begin here? -/
def varHead : Str → Bool
  | [] => false
  | d :: r => isVarChar d && varTail r

/-- config.py 33: `re_var.search(s)`, for `{[a-zA-Z_]+}`. -/
def hasVar : Str → Bool
  | [] => false
  | c :: s => (c == '{' && varHead s) || hasVar s

/-- The value of a replacement field: plain names are looked up, empty and numeric ones index the (empty)
positional arguments; a field with `.`, `[`, `!`, `:` or `{` has its own syntax, left to `special`. -/
def formatField (special : Str → Py Str) (vars : Dict Str Str) (f : Str) : Py Str :=
  if f.any (fun c => c == '.' || c == '[' || c == '!' || c == ':' || c == '{') then special f
  else if f = [] ∨ Str.isDigit f = true then .error .indexError
  else Dict.getE vars f

/-- `s.format(**vars)`. The first argument is the text of the replacement field being read, in reverse;
`none` outside a field. -/
def format (special : Str → Py Str) (vars : Dict Str Str) : Option Str → Str → Py Str
  | none, [] => .ok []
  | some _, [] => .error .valueError
  | none, '{' :: '{' :: s => do
    let r ← format special vars none s
    .ok ('{' :: r)
  | none, '}' :: '}' :: s => do
    let r ← format special vars none s
    .ok ('}' :: r)
  | none, c :: s =>
    if c = '{' then format special vars (some []) s
    else if c = '}' then .error .valueError
    else do
      let r ← format special vars none s
      .ok (c :: r)
  | some f, c :: s =>
    if c = '}' then do
      let v ← formatField special vars f.reverse
      let r ← format special vars none s
      .ok (v ++ r)
    else format special vars (some (c :: f)) s

/-- exceptions.py (`NO_VAR_DEFINED`). -/
def NO_VAR_DEFINED : Nat := 8000

/-- config.py 74-81: one path setting. -/
def interpolateOne (special : Str → Py Str) (vars : Dict Str Str) (s : Str) : Py Str :=
  if hasVar s then do
    let r ← format special vars none s
    if hasVar r then .error (.app NO_VAR_DEFINED) else .ok r
  else .ok s

/-- config.py 65-81 (`interpolate_strings`) on the four path settings; a setting that is absent is `''` and
stays as it is. (The code first collects the settings with variables, then replaces them one by one: the
settings are independent.) -/
def interpolateStrings (special : Str → Py Str) (vars : Dict Str Str) (paths : List Str) :
    Py (List Str) := paths.mapM (interpolateOne special vars)

end PyG2P
