import Verif.Model.Exe
import Verif.Model.Strings

/-! # Command line — context.py 196-253, 255-316, with argparse of CPython (3.8 and later)

Arguments without line breaks. Letters, digits and `int(...)` are ASCII. -/

namespace PyG2P
namespace ArgParse

/-- How an option takes its value: text, whole number, one of some texts, one of some numbers, `store_true`, and
`--help` (prints the help and ends the program). -/
inductive Kind where
  | text
  | int
  | oneOf (l : List Str)
  | intOf (l : List Int)
  | flag
  | help
  deriving DecidableEq

/-- One `add_argument`: short and long name, kind, and default. The destination is the long name without dashes. -/
structure OptSpec where
  short : Str
  long : Str
  kind : Kind
  default : JVal
  deriving DecidableEq

/-- the destination of an option. -/
def OptSpec.dest (o : OptSpec) : Str := o.long.drop 2

/-- does the option take a value? -/
def OptSpec.takes (o : OptSpec) : Bool :=
  match o.kind with
  | .flag => false
  | .help => false
  | _ => true

/-- an option written with string literals. -/
def opt (s l : String) (k : Kind) (d : JVal) : OptSpec := ⟨s.toList, l.toList, k, d⟩

/-- context.py 258-315 (`add_args`), after the `-h` that argparse adds. -/
def options : List OptSpec := [
  opt "-h" "--help" .help .null,
  opt "-c" "--commandsFile" .text .null,
  opt "-o" "--outDir" .text (.str "./".toList),
  opt "-i" "--inputFile" .text .null,
  opt "-I" "--inputFile2" .text .null,
  opt "-s" "--start" .int .null,
  opt "-e" "--end" .int .null,
  opt "-m" "--perturbationNumber" .int .null,
  opt "-T" "--dataTime" (.intOf [0, 1200]) .null,
  opt "-D" "--dataDate" .int .null,
  opt "-f" "--fmap" .int (.int 1),
  opt "-F" "--format" (.oneOf ["netcdf".toList, "pcraster".toList, "notset".toList]) (.str "notset".toList),
  opt "-x" "--ext" .int (.int 1),
  opt "-n" "--namePrefix" .text .null,
  opt "-O" "--offset" .text .null,
  opt "-S" "--scaleFactor" .text .null,
  opt "-vM" "--validMax" .text .null,
  opt "-vm" "--validMin" .text .null,
  opt "-vf" "--valueFormat" .text .null,
  opt "-U" "--outputStepUnits" .text .null,
  opt "-l" "--loggerLevel" (.oneOf ["ERROR".toList, "WARNING".toList, "INFO".toList, "DEBUG".toList])
    (.str "INFO".toList),
  opt "-N" "--intertableDir" .text .null,
  opt "-G" "--geopotentialDir" .text .null,
  opt "-B" "--createIntertable" .flag (.bool false),
  opt "-X" "--interpolationParallel" .flag (.bool false),
  opt "-g" "--addGeopotential" .text .null,
  opt "-W" "--downloadConf" (.oneOf ["geopotentials".toList, "intertables".toList]) .null,
  opt "-A" "--underApi" .flag (.bool false),
  opt "-K" "--checkConf" .flag (.bool false)]

/-- `_option_string_actions`: the names known, with their options. -/
def names : List (Str × OptSpec) := options.flatMap fun o => [(o.short, o), (o.long, o)]

/-- the option with exactly this name. -/
def findOpt (s : Str) : Option OptSpec := (names.find? fun p => p.1 == s).map Prod.snd

/-- at least one digit, and nothing else. -/
def allDigits (s : Str) : Bool := decide (s ≠ []) && s.all Str.isDigitChar

/-- a point followed by digits. -/
def isFraction : Str → Bool
  | '.' :: f => allDigits f
  | _ => false

/-- `_negative_number_matcher`: `^-\d+$|^-\d*\.\d+$`. -/
def isNegNumber : Str → Bool
  | '-' :: r => allDigits r || isFraction (r.dropWhile Str.isDigitChar)
  | _ => false

/-- What an argument is taken for: an option (with the text attached to it, if any), an option that is not known, a
value. -/
inductive Tok where
  | opt (o : OptSpec) (long : Bool) (attached : Option Str)
  | unknown
  | arg
  deriving DecidableEq

/-- `arg_string.split('=', 1)`. -/
def splitEq (s : Str) : Str × Option Str :=
  match s.dropWhile (· ≠ '=') with
  | [] => (s, none)
  | _ :: v => (s.takeWhile (· ≠ '='), some v)

/-- starts with two dashes. -/
def isLong (s : Str) : Bool := List.isPrefixOf ['-', '-'] s

/-- `_get_option_tuples`: options the argument may abbreviate, or to which its rest is attached. -/
def candidates (s : Str) : List Tok :=
  if isLong s then
    names.filterMap fun p => if (splitEq s).1.isPrefixOf p.1 then some (.opt p.2 true (splitEq s).2) else none
  else
    names.filterMap fun p =>
      if p.1 = s.take 2 then some (.opt p.2 false (some (s.drop 2)))
      else if s.isPrefixOf p.1 then some (.opt p.2 false none) else none

/-- the option named before an equals sign, and the text after it. -/
def withEq (s : Str) : Option (OptSpec × Str) :=
  match (splitEq s).2 with
  | none => none
  | some v => (findOpt (splitEq s).1).map fun o => (o, v)

/-- `_parse_optional`; `none`: the argument is ambiguous. -/
def classify (s : Str) : Option Tok :=
  match s with
  | '-' :: r =>
    match findOpt s with
    | some o => some (.opt o (isLong s) none)
    | none =>
      if r = [] then some .arg
      else
        match withEq s with
        | some (o, v) => some (.opt o (isLong s) (some v))
        | none =>
          match candidates s with
          | [t] => some t
          | _ :: _ :: _ => none
          | [] => if isNegNumber s ∨ ' ' ∈ s then some .arg else some .unknown
  | _ => some .arg

/-- all arguments; after `--` everything is a value (`--` itself is left over at the end, as an unknown option is). -/
def classifyAll : List Str → Option (List (Str × Tok))
  | [] => some []
  | s :: rest =>
    if s = ['-', '-'] then some ((s, .unknown) :: rest.map fun x => (x, .arg))
    else
      match classify s, classifyAll rest with
      | some t, some l => some ((s, t) :: l)
      | _, _ => none

/-- `_get_value` and `_check_value`; `none`: refused. -/
def valueOf (k : Kind) (v : Str) : Option JVal :=
  match k with
  | .text => some (.str v)
  | .oneOf l => if v ∈ l then some (.str v) else none
  | .int => match Str.toInt v with
    | .ok z => some (.int z)
    | .error _ => none
  | .intOf l => match Str.toInt v with
    | .ok z => if z ∈ l then some (.int z) else none
    | .error _ => none
  | .flag => some (.bool true)
  | .help => none

/-- Why parsing ended: arguments refused, or help asked for. -/
inductive Stop where
  | refused
  | help
  deriving DecidableEq

/-- what one option does: the destination is set, or the program ends. -/
def act (o : OptSpec) (v : Str) (d : Dict Str JVal) : Except Stop (Dict Str JVal) :=
  match o.kind with
  | .help => .error .help
  | _ =>
    match valueOf o.kind v with
    | some x => .ok (Dict.set d o.dest x)
    | none => .error .refused

/-- `consume_optional` for one dash: the text attached to an option without value is read as further options. Result:
the options met before the last, the last, and the text attached to that. -/
def chain (o : OptSpec) : Str → Option (List OptSpec × OptSpec × Option Str)
  | [] => if o.takes then some ([], o, some []) else none
  | c :: r =>
    if o.takes then some ([], o, some (c :: r))
    else
      match findOpt ['-', c] with
      | none => none
      | some o' =>
        if r = [] then some ([o], o', none)
        else (chain o' r).map fun q => (o :: q.1, q.2)

/-- `consume_optional`: options met and the text attached to the last. -/
def resolve (o : OptSpec) (long : Bool) (attached : Option Str) : Option (List OptSpec × OptSpec × Option Str) :=
  match attached with
  | none => some ([], o, none)
  | some v => if long then (if o.takes then some ([], o, some v) else none) else chain o v

/-- the flags before the last option. -/
def actAll (l : List OptSpec) (d : Dict Str JVal) : Except Stop (Dict Str JVal) :=
  l.foldlM (fun d o => act o [] d) d

/-- `_parse_known_args`: the arguments from left to right; `extra`: is there an argument that was not recognised? -/
def consume : List (Str × Tok) → Dict Str JVal → Bool → Except Stop (Dict Str JVal × Bool)
  | [], d, extra => .ok (d, extra)
  | (_, .arg) :: rest, d, _ => consume rest d true
  | (_, .unknown) :: rest, d, _ => consume rest d true
  | (_, .opt o long attached) :: rest, d, extra =>
    match resolve o long attached with
    | none => .error .refused
    | some (pre, o', v') =>
      match v' with
      | some v =>
        match actAll pre d with
        | .error e => .error e
        | .ok d1 => match act o' v d1 with
          | .error e => .error e
          | .ok d2 => consume rest d2 extra
      | none =>
        if o'.takes then
          match rest with
          | (v, .arg) :: rest' =>
            match actAll pre d with
            | .error e => .error e
            | .ok d1 => match act o' v d1 with
              | .error e => .error e
              | .ok d2 => consume rest' d2 extra
          | _ => .error .refused
        else
          match actAll pre d with
          | .error e => .error e
          | .ok d1 => match act o' [] d1 with
            | .error e => .error e
            | .ok d2 => consume rest d2 extra

/-- the values before parsing. -/
def defaults : Dict Str JVal := (options.filter fun o => o.kind ≠ .help).map fun o => (o.dest, o.default)

/-- context.py 198-217 (`_define_input_args`): the arguments parsed; refusals are `ApplicationException` 10000
(context.py 199-203, 211-213); `none`: the help was printed and the program ends. -/
def parseArgs (argv : List Str) : Py (Option (Dict Str JVal)) :=
  if argv = [] then .error (.app 10000)
  else
    match classifyAll argv with
    | none => .error (.app 10000)
    | some toks =>
      match consume toks defaults false with
      | .error .help => .ok none
      | .error .refused => .error (.app 10000)
      | .ok (_, true) => .error (.app 10000)
      | .ok (d, false) => .ok (some d)

/-- api.py 41-48 (`Command.cmds_map`): the methods `with_...` of a command object and the options they set. -/
def builders : List (String × String) := [
  ("cmdpath", "-c"), ("inputfile", "-i"), ("second_input_file", "-I"), ("eps", "-m"), ("tend", "-e"), ("tstart", "-s"),
  ("datatime", "-T"), ("datadate", "-D"), ("ext", "-x"), ("fmap", "-f"), ("outdir", "-o"), ("nameprefix", "-n"),
  ("scaleFactor", "-S"), ("offset", "-O"), ("validMax", "-vM"), ("validMin", "-vm"), ("valueFormat", "-vf"),
  ("log_level", "-l"), ("log_dir", "-d"), ("out_format", "-F"), ("outputStepUnits", "-U"), ("create_intertable", "-B"),
  ("parallel", "-X"), ("intertable_dir", "-N")]

/-- api.py 27-30, 67-68: a call `with_<method>(value)` of a command object; the methods without argument have value `''`. -/
def withMethod (d : Dict Str Str) (method : String) (value : Str) : Py (Dict Str Str) :=
  match builders.lookup method with
  | none => .error .attributeError
  | some opt => .ok (Dict.set d opt.toList value)

/-! ## The parsed arguments as execution parameters (context.py 219-246) -/

/-- a text option. -/
def asText (d : Dict Str JVal) (k : String) : Option Str :=
  match Dict.get? d k.toList with
  | some (.str s) => some s
  | _ => none

/-- a numeric option. -/
def asInt (d : Dict Str JVal) (k : String) : Option Int :=
  match Dict.get? d k.toList with
  | some (.int z) => some z
  | _ => none

/-- a flag. -/
def asFlag (d : Dict Str JVal) (k : String) : Bool :=
  match Dict.get? d k.toList with
  | some (.bool b) => b
  | _ => false

/-- context.py 222-240: the options that the command file can also give. -/
def cliOf (d : Dict Str JVal) : Cli where
  start := asInt d "start"
  end_ := asInt d "end"
  dataTime := asInt d "dataTime"
  dataDate := asInt d "dataDate"
  fmap := asInt d "fmap"
  ext := asInt d "ext"
  format := asText d "format"
  namePrefix := asText d "namePrefix"
  scaleFactor := asText d "scaleFactor"
  offset := asText d "offset"
  validMin := asText d "validMin"
  validMax := asText d "validMax"
  valueFormat := asText d "valueFormat"
  outputStepUnits := asText d "outputStepUnits"
  intertableDir := asText d "intertableDir"
  geopotentialDir := asText d "geopotentialDir"

/-- context.py 220-221, 242-246: the arguments that decide what is done. -/
def argsOf (d : Dict Str JVal) : Args where
  commandsFile := asText d "commandsFile"
  inputFile := asText d "inputFile"
  addGeopotential := asText d "addGeopotential"
  download := asText d "downloadConf"
  checkConf := asFlag d "checkConf"

end ArgParse
end PyG2P
