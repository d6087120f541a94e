import Verif.Model.CommandRun
import Verif.Props.ArgParse
import Verif.Props.ContextMore
import Verif.Props.Config
import Verif.Props.UserConf
import Verif.Props.FileRun

/-! # C143–C145 — from the command line to the maps -/

namespace PyG2P
open ArgParse CommandRun
variable {n k : Nat}

namespace Spec

/-- What a command asks for. -/
structure Request where
  input : Str
  outDir : Str
  shortName : Str
  tstart : Option Int
  tend : Option Int
  dataTime : Option Int
  dataDate : Option Int
  level : Option Int
  member : Option Int
  conversion : Option (Str × Bool)
  correction : Option (Str × Str × Str)
  mode : Str
  latMap : Str
  lonMap : Str
  clone : Str
  aggr : Option AggrOpts
  unitTime : Int
  namePrefix : Str
  fmap : Int
  ext : Int
  format : Str

/-- An option that is not on the command line. -/
def Absent (items : List (Written × Str × JVal)) (name : String) : Prop := ∀ q ∈ items, q.2.1 ≠ name.toList

/-- The value of an option that only the command line gives. -/
def Typed (items : List (Written × Str × JVal)) (name : String) (dflt x : JVal) : Prop :=
  LastGiven items name.toList x ∨ (Absent items name ∧ x = dflt)

/-- The value of an option: the last one on the command line, or else the one in the command file, or else the
default. Left out: values on the command line that mean "not given" (C32), and `0`, `''`, `false` in the command file,
except for the valid range, the value format and the step unit. -/
def Chosen (items : List (Written × Str × JVal)) (j : Json) (tblDir geoDir : Str) (o : Opt) (x : JVal) : Prop :=
  (LastGiven items (optName o).toList x ∧ confusing o ≠ some x) ∨
  (Absent items (optName o) ∧ (inJson j o ∉ [.int 0, .num 0, .str [], .bool false] ∨
      o ∈ [Opt.validMin, .validMax, .valueFormat, .outputStepUnits]) ∧
    expected none (inJson j o) (default j tblDir geoDir o) (isInt o) = .ok x)

/-- A path of the command file with the user's variables filled in. -/
def Expands (vars : Dict Str Str) (p p' : Str) : Prop :=
  ∃ (segs : List Seg) (value : Str → Str), (∀ g ∈ segs, g.Ok) ∧ p = segs.flatMap Seg.text ∧
    (∀ v, Seg.var v ∈ segs → Dict.get? vars v = some (value v)) ∧ (∀ v, '{' ∉ value v) ∧
    p' = segs.flatMap (Seg.subst value)

/-- A number in the command file: as such or written as text. -/
def NumberIn (v : JVal) (z : Int) : Prop := v = .int z ∨ ∃ t, v = .str t ∧ WholeNumber t z

/-- Texts that switch the zero field off. -/
def offTexts : List Str := ["false", "f", "no", "0", "off"].map String.toList

/-- The aggregation in the command file. -/
def AggrIn (a : Option (JAggr × JVal)) (r : Option AggrOpts) : Prop :=
  (a = none ∧ r = none) ∨
  ∃ (x : JAggr) (h : JVal) (st : Int) (ty : String) (zero : Bool), a = some (x, h) ∧ NumberIn x.step st ∧
    x.step ∉ [.int 0, .str []] ∧ x.type = .str ty.toList ∧ ty ≠ "" ∧
    r = some ⟨st, ty, decide (h ∉ [.null, .int 0, .num 0, .str [], .bool false]), zero⟩ ∧
    ((ty ≠ "accumulation" ∧ zero = false) ∨ (x.forceZero = none ∧ zero = false) ∨
      ∃ t, ty = "accumulation" ∧ x.forceZero = some (.str t) ∧ (zero = true ↔ t.map Char.toLower ∉ offTexts))

/-- The conversion named in the command file: the first of that name among those of the parameter. -/
def ConversionIn (cs : Conversions) (v : JVal) (r : Option (Str × Bool)) : Prop :=
  (v = .null ∧ r = none) ∨
  ∃ (pre : List ConvEntry) (c : ConvEntry) (post : List ConvEntry) (b : Bool), v = .str c.id ∧ c.id ≠ [] ∧
    entries cs = pre ++ c :: post ∧ (∀ y ∈ pre, y.id ≠ c.id) ∧ r = some (c.function, b) ∧
    ((c.cutOff = .null ∧ b = false) ∨ c.cutOff = .bool b ∨
      ∃ x t, c.cutOff = .str (x :: t) ∧ (b = true ↔ x ∈ ['T', 't', 'Y', 'y']))

/-- A text that is there. -/
def IsText (v : JVal) (t : Str) : Prop := v = .str t ∧ t ≠ []

/-- The correction in the command file: formula, gem formula and DEM, or not all of them. -/
def CorrectionIn (vars : Dict Str Str) (cf : CmdFile) (r : Option (Str × Str × Str)) : Prop :=
  ((cf.correctionFormula = .null ∨ cf.gem = .null ∨ cf.demMap = .null) ∧ r = none) ∨
  ∃ f g d d', IsText cf.correctionFormula f ∧ IsText cf.gem g ∧ IsText cf.demMap d ∧ Expands vars d d' ∧
    r = some (f, g, d')

/-- The request that command line and command file make together. -/
structure Requested (s : Site n k) (items : List (Written × Str × JVal)) (cf : CmdFile) (r : Request) : Prop where
  input : LastGiven items "inputFile".toList (.str r.input)
  outDir : Typed items "outDir" (.str "./".toList) (.str r.outDir)
  shortName : r.shortName = cf.base.shortName
  tstart : Chosen items cf.base s.tblDir s.geoDir .tstart (JVal.ofOption .int r.tstart)
  tend : Chosen items cf.base s.tblDir s.geoDir .tend (JVal.ofOption .int r.tend)
  dataTime : Chosen items cf.base s.tblDir s.geoDir .dataTime (JVal.ofOption .int r.dataTime)
  dataDate : Chosen items cf.base s.tblDir s.geoDir .dataDate (JVal.ofOption .int r.dataDate)
  level : (cf.level = .null ∧ r.level = none) ∨ ∃ ds : List Nat, ds ≠ [] ∧ (∀ d ∈ ds, d < 10) ∧
    cf.level = .str (digitsText ds) ∧ r.level = some (Nat.ofDigits 10 ds.reverse : Nat)
  member : Typed items "perturbationNumber" .null (JVal.ofOption .int r.member)
  conversion : ∃ cs, Dict.get? s.parameters r.shortName = some cs ∧ s.known cs = true ∧
    ConversionIn cs cf.applyConversion r.conversion
  correction : CorrectionIn s.vars cf r.correction
  mode : (cf.mode = none ∧ r.mode = "grib_nearest".toList) ∨ cf.mode = some (.str r.mode)
  latMap : Expands s.vars cf.latMap r.latMap
  lonMap : Expands s.vars cf.lonMap r.lonMap
  clone : Expands s.vars cf.cloneMap r.clone
  aggr : AggrIn cf.aggr r.aggr
  unitTime : (cf.unitTime = .null ∧ r.unitTime = 24) ∨ NumberIn cf.unitTime r.unitTime
  namePrefix : Chosen items cf.base s.tblDir s.geoDir .namePrefix (.str r.namePrefix)
  fmap : Chosen items cf.base s.tblDir s.geoDir .fmap (.int r.fmap)
  ext : Chosen items cf.base s.tblDir s.geoDir .ext (.int r.ext)
  format : Chosen items cf.base s.tblDir s.geoDir .format (.str r.format)

/-- The request can be met: files and folder are there, the method is known, the window is not empty. -/
structure Acceptable (fs : Fs) (r : Request) : Prop where
  input : r.input ≠ [] ∧ fs.isFile r.input = true
  maps : fs.isFile r.latMap = true ∧ fs.isFile r.lonMap = true ∧ fs.isFile r.clone = true
  mode : r.mode ∈ ["grib_nearest", "grib_invdist", "nearest", "invdist", "adw", "cdd", "bilinear", "triangulation",
    "bilinear_delaunay"].map String.toList
  folder : r.outDir = "./".toList ∨ fs.isDir (folder r.outDir) = true ∨ fs.canCreate (folder r.outDir) = true
  window : ∀ a b, r.tstart = some a → r.tend = some b → a ≤ b
  dem : ∀ f g d, r.correction = some (f, g, d) → d ≠ [] ∧ fs.isFile d = true

/-- The run that a request describes: its messages and what is needed to make and write the maps. -/
def runOf (s : Site n k) (r : Request) : FileIn n k where
  file := (s.grib r.input).1
  indexable := (s.grib r.input).2
  sel := ⟨r.shortName, r.level, r.dataTime, r.dataDate, r.member⟩
  tstart := r.tstart
  tend := r.tend
  aggr := r.aggr
  unitTime := r.unitTime
  cutOff := (r.conversion.map Prod.snd).getD false
  conversion := r.conversion.map fun p => some p.1
  table := (s.tables r.mode r.latMap r.lonMap r.input).1
  table2 := (s.tables r.mode r.latMap r.lonMap r.input).2
  mvOut := s.mvOf r.latMap
  height := r.correction.map fun p => (s.heights p.1 p.2.1 p.2.2).1
  height2 := r.correction.map fun p => (s.heights p.1 p.2.1 p.2.2).2
  mask := (s.clone r.clone).1
  mvClone := (s.clone r.clone).2
  namePrefix := r.namePrefix
  fmap := r.fmap
  ext := r.ext
  gridId := []
  gridId2 := []

/-- A file name in a folder; an absolute name stays as it is. -/
def inFolder (dir name : Str) : Str := if name.head? = some '/' then name else folder dir ++ name

/-- The command file meant: names starting with `./` or `../` are taken from the current folder. -/
def located (cwd : Str) : Str → Str
  | '.' :: '/' :: r => folder cwd ++ '.' :: '/' :: r
  | '.' :: '.' :: '/' :: r => folder cwd ++ '.' :: '.' :: '/' :: r
  | p => p

/-- Exit status of a failed run: 1, but 0 if no messages were found (3000); other exceptions are not caught. -/
def failure : PyErr → Py Int
  | .app 3000 => .ok 0
  | .app _ => .ok 1
  | .appNoCode => .ok 1
  | e => .error e

end Spec

namespace CommandRun

theorem truthy_of {v : JVal} (h : v ∉ [JVal.int 0, .num 0, .str [], .bool false]) : v = .null ∨ v.truthy = true := by
  cases v with
  | null => exact Or.inl rfl
  | bool b =>
    cases b with
    | true => exact Or.inr rfl
    | false => exact absurd (by simp) h
  | int z =>
    refine Or.inr (decide_eq_true ?_)
    rintro rfl
    exact h (by simp)
  | num q =>
    refine Or.inr (decide_eq_true ?_)
    rintro rfl
    exact h (by simp)
  | str t =>
    refine Or.inr (decide_eq_true ?_)
    rintro rfl
    exact h (by simp)

theorem orElse_of {v d : JVal} (h : v = .null ∨ v.truthy = true) : v.orElse d = if v = .null then d else v := by
  unfold JVal.orElse
  rcases h with rfl | h
  · rfl
  · rw [if_pos h, if_neg (by rintro rfl; cases h)]

theorem expected_raw {v d x : JVal} (h : v = .null ∨ v.truthy = true) (hx : Spec.expected none v d false = .ok x) :
    v.orElse d = x := by
  rw [orElse_of h]
  unfold Spec.expected at hx
  dsimp only at hx
  by_cases hn : v = .null
  · rw [if_pos hn] at hx ⊢
    exact Except.ok.inj hx
  · rw [if_neg hn] at hx ⊢
    exact Except.ok.inj hx

theorem expected_int {v x : JVal} (h : v = .null ∨ v.truthy = true) (hx : Spec.expected none v .null true = .ok x) :
    intOpt none v = .ok x := by
  unfold Spec.expected at hx
  unfold intOpt
  dsimp only at hx ⊢
  rcases h with rfl | h
  · exact hx
  · rw [if_neg (by rintro rfl; cases h)] at hx
    rw [if_pos h]
    exact hx

theorem expected_null {v x : JVal} (hx : Spec.expected none v .null false = .ok x) : rawOpt none v = .ok x := by
  unfold Spec.expected at hx
  unfold rawOpt
  dsimp only at hx ⊢
  by_cases hn : v = .null
  · rw [if_pos hn] at hx
    rw [hn]
    exact hx
  · rw [if_neg hn] at hx
    exact hx

/-- the parsed arguments. -/
theorem parsed (items : List (Spec.Written × Str × JVal)) (h0 : items ≠ []) (h : ∀ q ∈ items, Spec.Sets q.1 q.2.1 q.2.2) :
    ∃ d, parseArgs (items.flatMap fun q => q.1.words) = .ok (some d) ∧
      (∀ k x, Spec.LastGiven items k x → Dict.get? d k = some x) ∧
      (∀ name : String, Spec.Absent items name → Dict.get? d name.toList = Dict.get? defaults name.toList) :=
  ⟨settle items defaults, parse_items items h0 h, fun k x hk => (settle_get items defaults k).1 x hk,
    fun _ ha => (settle_get items defaults _).2 ha⟩

theorem asInt_absent {d : Dict Str JVal} {name : String} (h : Dict.get? d name.toList = Dict.get? defaults name.toList) :
    asInt d name = asInt defaults name := by
  unfold asInt; rw [h]

theorem asText_absent {d : Dict Str JVal} {name : String} (h : Dict.get? d name.toList = Dict.get? defaults name.toList) :
    asText d name = asText defaults name := by
  unfold asText; rw [h]

/-- the value that an option gets. -/
theorem chosen_value {items : List (Spec.Written × Str × JVal)} (h : ∀ q ∈ items, Spec.Sets q.1 q.2.1 q.2.2)
    {d : Dict Str JVal} (hd : ∀ k x, Spec.LastGiven items k x → Dict.get? d k = some x)
    (ha : ∀ name : String, Spec.Absent items name → Dict.get? d name.toList = Dict.get? defaults name.toList)
    {j : Json} {tblDir geoDir : Str} {o : Opt} {x : JVal} (hc : Spec.Chosen items j tblDir geoDir o x) :
    optValue (cliOf d) j tblDir geoDir o = .ok x := by
  rcases hc with ⟨hl, hcf⟩ | ⟨hab, hv, hx⟩
  · have hg := hd _ x hl
    obtain ⟨pre, w, post, he, -⟩ := hl
    have hs : Spec.Sets w (Spec.optName o).toList x :=
      h (w, _, x) (by rw [he]; exact List.mem_append_right _ List.mem_cons_self)
    have := sets_shape hs
    exact C32_command_line_wins _ j tblDir geoDir o x (cli_get hg this.1 this.2) hcf
  · have hg := ha _ hab
    have hv : o ∉ [Opt.validMin, .validMax, .valueFormat, .outputStepUnits] →
        Spec.inJson j o = .null ∨ (Spec.inJson j o).truthy = true := fun ho => truthy_of (hv.resolve_right ho)
    cases o with
    | tstart =>
      have hv := hv (by decide)
      have : asInt d "start" = none := (asInt_absent hg).trans (by decide +kernel)
      show intOpt (asInt d "start") j.tstart = _
      rw [this]; exact expected_int hv hx
    | tend =>
      have hv := hv (by decide)
      have : asInt d "end" = none := (asInt_absent hg).trans (by decide +kernel)
      show intOpt (asInt d "end") j.tend = _
      rw [this]; exact expected_int hv hx
    | dataTime =>
      have hv := hv (by decide)
      have : asInt d "dataTime" = none := (asInt_absent hg).trans (by decide +kernel)
      show intOpt (asInt d "dataTime") j.dataTime = _
      rw [this]; exact expected_int hv hx
    | dataDate =>
      have hv := hv (by decide)
      have : asInt d "dataDate" = none := (asInt_absent hg).trans (by decide +kernel)
      show intOpt (asInt d "dataDate") j.dataDate = _
      rw [this]; exact expected_int hv hx
    | fmap =>
      have hv := hv (by decide)
      have : asInt d "fmap" = some 1 := (asInt_absent hg).trans (by decide +kernel)
      show numOpt (asInt d "fmap") j.fmap = _
      rw [this]; exact congrArg Except.ok (expected_raw hv hx)
    | ext =>
      have hv := hv (by decide)
      have : asInt d "ext" = some 1 := (asInt_absent hg).trans (by decide +kernel)
      show numOpt (asInt d "ext") j.ext = _
      rw [this]; exact congrArg Except.ok (expected_raw hv hx)
    | format =>
      have hv := hv (by decide)
      have : asText d "format" = some "notset".toList := (asText_absent hg).trans (by decide +kernel)
      show formatOpt (asText d "format") j.format = _
      rw [this]; exact congrArg Except.ok (expected_raw hv hx)
    | namePrefix =>
      have hv := hv (by decide)
      have : asText d "namePrefix" = none := (asText_absent hg).trans (by decide +kernel)
      show prefixOpt (asText d "namePrefix") j.namePrefix j.shortName = _
      rw [this]; exact congrArg Except.ok (expected_raw hv hx)
    | scaleFactor =>
      have hv := hv (by decide)
      have : asText d "scaleFactor" = none := (asText_absent hg).trans (by decide +kernel)
      show strOpt (asText d "scaleFactor") j.scaleFactor (.num 1) = _
      rw [this]; exact congrArg Except.ok (expected_raw hv hx)
    | offset =>
      have hv := hv (by decide)
      have : asText d "offset" = none := (asText_absent hg).trans (by decide +kernel)
      show strOpt (asText d "offset") j.offset (.num 0) = _
      rw [this]; exact congrArg Except.ok (expected_raw hv hx)
    | validMin =>
      have : asText d "validMin" = none := (asText_absent hg).trans (by decide +kernel)
      show rawOpt (asText d "validMin") j.validMin = _
      rw [this]; exact expected_null hx
    | validMax =>
      have : asText d "validMax" = none := (asText_absent hg).trans (by decide +kernel)
      show rawOpt (asText d "validMax") j.validMax = _
      rw [this]; exact expected_null hx
    | valueFormat =>
      have : asText d "valueFormat" = none := (asText_absent hg).trans (by decide +kernel)
      show rawOpt (asText d "valueFormat") j.valueFormat = _
      rw [this]; exact expected_null hx
    | outputStepUnits =>
      have : asText d "outputStepUnits" = none := (asText_absent hg).trans (by decide +kernel)
      show rawOpt (asText d "outputStepUnits") j.outputStepUnits = _
      rw [this]; exact expected_null hx
    | intertableDir =>
      have hv := hv (by decide)
      have : asText d "intertableDir" = none := (asText_absent hg).trans (by decide +kernel)
      show dirOpt (asText d "intertableDir") j.intertableDir tblDir = _
      rw [this]; exact congrArg Except.ok (expected_raw hv hx)
    | geopotentialDir =>
      have hv := hv (by decide)
      have : asText d "geopotentialDir" = none := (asText_absent hg).trans (by decide +kernel)
      show dirOpt (asText d "geopotentialDir") j.geopotentialDir geoDir = _
      rw [this]; exact congrArg Except.ok (expected_raw hv hx)

/-- a path is filled in. -/
theorem expands_eq {sp : Str → Py Str} {vars : Dict Str Str} {p p' : Str} (h : Spec.Expands vars p p') :
    interpolateOne sp vars p = .ok p' := by
  obtain ⟨segs, value, hok, rfl, hdef, hval, rfl⟩ := h
  have := paths_substituted_partial sp vars [segs] (by simpa using hok) value (by simpa using hdef) hval
  unfold interpolateStrings at this
  rw [List.map_cons, List.map_nil, List.mapM_cons, List.mapM_nil] at this
  cases hi : interpolateOne sp vars (segs.flatMap Spec.Seg.text) with
  | error e => rw [hi] at this; cases this
  | ok q =>
    rw [hi] at this
    have := Except.ok.inj this
    simp only [List.map_cons, List.map_nil, List.cons.injEq, and_true] at this
    rw [this]

theorem number_eq {v : JVal} {z : Int} (h : Spec.NumberIn v z) : JVal.toInt v = .ok z := by
  rcases h with rfl | ⟨t, rfl, ht⟩
  · rfl
  · exact (toInt_iff t z).2 ht

theorem upper_ty (x : Char) : (x.toUpper = 'T' ∨ x.toUpper = 'Y') ↔ x ∈ ['T', 't', 'Y', 'y'] := by
  rw [toUpper_eq_iff (l := 't') (by decide) (by decide), toUpper_eq_iff (l := 'y') (by decide) (by decide)]
  simp only [List.mem_cons, List.not_mem_nil, or_false]
  tauto

theorem conversion_eq {cs : Conversions} {v : JVal} {r : Option (Str × Bool)} (h : Spec.ConversionIn cs v r) :
    conversionOf cs v = .ok r := by
  unfold conversionOf
  rcases h with ⟨rfl, rfl⟩ | ⟨pre, c, post, b, rfl, hne, he, hpre, rfl, hb⟩
  · rfl
  · have hg : getConversion cs c.id = .ok c := ((parameter_lookup.1 cs c.id).1 c).2 ⟨pre, post, he, rfl, hpre⟩
    rw [if_pos (show (JVal.str c.id).truthy = true from decide_eq_true hne)]
    show (match getConversion cs c.id with | .error e => _ | .ok c => _) = _
    rw [hg]
    dsimp only
    have : toBoolean c.cutOff = .ok b := by
      rcases hb with ⟨h, rfl⟩ | h | ⟨x, t, h, hx⟩
      · rw [h]; rfl
      · rw [h]; rfl
      · rw [h]
        show Except.ok _ = _
        congr 1
        have key : (x.toUpper = 'T' ∨ x.toUpper = 'Y') ↔ x ∈ ['T', 't', 'Y', 'y'] := upper_ty x
        rw [Bool.eq_iff_iff, Bool.or_eq_true, decide_eq_true_iff, decide_eq_true_iff, key]
        exact hx.symm
    rw [this]
    rfl

theorem truthy_iff (h : JVal) : h.truthy = decide (h ∉ [JVal.null, .int 0, .num 0, .str [], .bool false]) := by
  rw [Bool.eq_iff_iff, decide_eq_true_iff]
  cases h with
  | null => exact ⟨(by intro h; cases h), fun h => absurd List.mem_cons_self h⟩
  | bool b => cases b <;> simp [JVal.truthy]
  | int z => simp [JVal.truthy]
  | num q => simp [JVal.truthy]
  | str t => simp [JVal.truthy]

theorem lower_low (c : Char) : ¬ ('A' ≤ c.toLower ∧ c.toLower ≤ 'Z') := by
  rintro ⟨h1, h2⟩
  unfold Char.toLower at h1 h2
  split at h1 <;> rename_i hc
  · rw [dif_pos hc] at h2
    have hge : 65 ≤ c.val.toNat := UInt32.le_iff_toNat_le.1 hc.1
    have hle : c.val.toNat ≤ 90 := UInt32.le_iff_toNat_le.1 hc.2
    have h3 : ('a'.val - 'A'.val).toNat = 32 := by decide
    have h4 : (c.val + ('a'.val - 'A'.val)).toNat = c.val.toNat + 32 := by
      rw [UInt32.toNat_add, h3]
      omega
    have h2' : (c.val + ('a'.val - 'A'.val)).toNat ≤ 90 := UInt32.le_iff_toNat_le.1 h2
    omega
  · exact hc ⟨h1, by rw [dif_neg hc] at h2; exact h2⟩

theorem false_texts (t : Str) : Str.lower t ∈ falseStrings ↔ t.map Char.toLower ∈ Spec.offTexts := by
  have hlow : ∀ c : Char, ¬ ('A' ≤ c.toLower ∧ c.toLower ≤ 'Z') := lower_low
  unfold Str.lower
  constructor
  · intro h
    have hno : ∀ c ∈ t.map Char.toLower, ¬ ('A' ≤ c ∧ c ≤ 'Z') := by
      intro c hc
      obtain ⟨x, -, rfl⟩ := List.mem_map.1 hc
      exact hlow x
    revert hno h
    generalize t.map Char.toLower = u
    revert u
    decide +kernel
  · revert t
    intro t
    generalize t.map Char.toLower = u
    revert u
    decide +kernel

theorem aggr_eq {a : Option (JAggr × JVal)} {r : Option AggrOpts} (h : Spec.AggrIn a r) :
    ∃ v, aggrOf a = .ok v ∧ aggrOpts v = .ok r := by
  rcases h with ⟨rfl, rfl⟩ | ⟨x, h, st, ty, zero, rfl, hst, hne, hty, htne, rfl, hz⟩
  · exact ⟨none, rfl, rfl⟩
  · have hzero : forceZero x = .ok zero := by
      unfold forceZero
      rw [hty]
      by_cases hac : ty = "accumulation"
      · subst hac
        rw [if_pos rfl]
        rcases hz with ⟨h1, -⟩ | ⟨h1, h2⟩ | ⟨t, -, h1, h2⟩
        · exact absurd rfl h1
        · rw [h1, h2]; decide +kernel
        · rw [h1, Option.getD_some]
          show Except.ok _ = _
          congr 1
          rw [Bool.eq_iff_iff, decide_eq_true_iff, h2, not_iff_not]
          exact false_texts t
      · have hn : ¬ JVal.str ty.toList = .str "accumulation".toList := by
          intro hc
          injection hc with hc
          exact hac (String.toList_inj.1 hc)
        rw [if_neg hn]
        rcases hz with ⟨-, h2⟩ | ⟨-, h2⟩ | ⟨t, h1, -⟩
        · rw [h2]
        · rw [h2]
        · exact absurd h1 hac
    have hdo : doAggregation (some x) = true := by
      have h1 : x.step.truthy = true := by
        rcases hst with h' | ⟨t, h', -⟩
        · rw [h']
          refine decide_eq_true ?_
          rintro rfl
          exact hne (by rw [h']; simp)
        · rw [h']
          refine decide_eq_true ?_
          rintro rfl
          exact hne (by rw [h']; simp)
      have h2 : x.type.truthy = true := by
        rw [hty]
        refine decide_eq_true ?_
        intro hc
        exact htne (String.toList_eq_nil_iff.1 hc)
      show (x.step.truthy && x.type.truthy) = true
      rw [h1, h2]; rfl
    refine ⟨some (x, h.truthy, zero), ?_, ?_⟩
    · unfold aggrOf
      dsimp only
      rw [hzero]
      show Except.ok (if _ then _ else _) = _
      rw [if_pos hdo]
    · unfold aggrOpts
      dsimp only
      rw [number_eq hst]
      have hh : h.truthy = decide (h ∉ [JVal.null, .int 0, .num 0, .str [], .bool false]) := truthy_iff h
      show Except.ok _ = _
      rw [hty, hh]
      unfold textOf
      dsimp only
      rw [String.ofList_toList]

theorem correction_eq {sp : Str → Py Str} {vars : Dict Str Str} {cf : CmdFile} {r : Option (Str × Str × Str)}
    (h : Spec.CorrectionIn vars cf r) : expandDem sp vars (correctionOf cf) = .ok r := by
  rcases h with ⟨h, rfl⟩ | ⟨f, g, d, d', ⟨hf, hf'⟩, ⟨hg, hg'⟩, ⟨hd, hd'⟩, he, rfl⟩
  · have : correctionOf cf = none := by
      unfold correctionOf
      rw [if_neg]
      rintro ⟨h1, h2, h3⟩
      rcases h with h | h | h
      · rw [h] at h1; cases h1
      · rw [h] at h2; cases h2
      · rw [h] at h3; cases h3
    rw [this]
    rfl
  · have : correctionOf cf = some (f, g, d) := by
      unfold correctionOf
      rw [if_pos]
      · rw [hf, hg, hd]; rfl
      · rw [hf, hg, hd]
        exact ⟨decide_eq_true hf', decide_eq_true hg', decide_eq_true hd'⟩
    rw [this]
    unfold expandDem
    dsimp only
    rw [expands_eq he]
    rfl

/-- the parameters that a request defines. -/
def defined (r : Spec.Request) (cf : CmdFile) (a : Option (JAggr × Bool × Bool)) : Defined where
  shortName := cf.base.shortName
  conversion := r.conversion
  correction := r.correction
  clone := r.clone
  mode := r.mode
  latMap := r.latMap
  lonMap := r.lonMap
  unitTime := cf.unitTime
  level := cf.level
  tstart := JVal.ofOption .int r.tstart
  tend := JVal.ofOption .int r.tend
  dataTime := JVal.ofOption .int r.dataTime
  dataDate := JVal.ofOption .int r.dataDate
  namePrefix := .str r.namePrefix
  fmap := .int r.fmap
  ext := .int r.ext
  format := .str r.format
  aggr := a

theorem number_of (o : Option Int) : numberOf (JVal.ofOption .int o) = o := by cases o <;> rfl

theorem define_eq {s : Site n k} {items : List (Spec.Written × Str × JVal)} (h : ∀ q ∈ items, Spec.Sets q.1 q.2.1 q.2.2)
    {d : Dict Str JVal} (hd : ∀ k x, Spec.LastGiven items k x → Dict.get? d k = some x)
    (ha : ∀ name : String, Spec.Absent items name → Dict.get? d name.toList = Dict.get? defaults name.toList)
    {cf : CmdFile} {r : Spec.Request} (hr : Spec.Requested s items cf r) :
    ∃ a, define s (cliOf d) cf = .ok (defined r cf a) ∧ aggrOpts a = .ok r.aggr := by
  obtain ⟨a, ha1, ha2⟩ := aggr_eq hr.aggr
  obtain ⟨cs, hcs, hk, hconv⟩ := hr.conversion
  have hp : getParameter s.known s.parameters cf.base.shortName = .ok cs :=
    ((parameter_lookup.2 Conversions s.known s.parameters cf.base.shortName).1 cs).2 ⟨by rw [← hr.shortName]; exact hcs, hk⟩
  have hmode : textOf (cf.mode.getD (.str "grib_nearest".toList)) = r.mode := by
    rcases hr.mode with ⟨h1, h2⟩ | h1
    · rw [h1, h2]; rfl
    · rw [h1]; rfl
  refine ⟨a, ?_, ha2⟩
  unfold define
  simp only [hp, conversion_eq hconv, chosen_value h hd ha hr.namePrefix, chosen_value h hd ha hr.fmap,
    chosen_value h hd ha hr.ext, chosen_value h hd ha hr.format, chosen_value h hd ha hr.tstart,
    chosen_value h hd ha hr.tend, chosen_value h hd ha hr.dataTime, chosen_value h hd ha hr.dataDate, ha1, ok_bind,
    expands_eq hr.clone, expands_eq hr.latMap, expands_eq hr.lonMap,
    correction_eq hr.correction, hmode]
  rfl

theorem level_eq {v : JVal} {l : Option Int} (h : (v = .null ∧ l = none) ∨ ∃ ds : List Nat, ds ≠ [] ∧ (∀ d ∈ ds, d < 10) ∧
    v = .str (Spec.digitsText ds) ∧ l = some (Nat.ofDigits 10 ds.reverse : Nat)) : levelOf v = .ok l := by
  rcases h with ⟨rfl, rfl⟩ | ⟨ds, hne, hlt, rfl, rfl⟩
  · rfl
  · have hn : Spec.digitsText ds ≠ [] := by
      intro hc
      exact hne (List.map_eq_nil_iff.1 hc)
    have hdig : Str.isDigit (Spec.digitsText ds) = true := (isDigit_iff _).2 (numeral_digits ds hne hlt)
    have hint : Str.toInt (Spec.digitsText ds) = .ok ((Nat.ofDigits 10 ds.reverse : Nat) : Int) :=
      (toInt_iff _ _).2 ⟨ds, hne, hlt, Or.inl ⟨Or.inl rfl, rfl⟩⟩
    unfold levelOf
    rw [if_pos (show (JVal.str (Spec.digitsText ds)).truthy = true from decide_eq_true hn)]
    dsimp only
    rw [if_pos hdig, hint]
    rfl

theorem unit_eq {v : JVal} {z : Int} (h : (v = .null ∧ z = 24) ∨ Spec.NumberIn v z) :
    ∃ u, unitTimeOf v = .ok u ∧ JVal.toInt u = .ok z := by
  rcases h with ⟨rfl, rfl⟩ | h
  · exact ⟨_, rfl, by decide +kernel⟩
  · have hn : v ≠ .null := by
      rintro rfl
      rcases h with h | ⟨t, h, -⟩ <;> cases h
    refine ⟨.int z, ?_, rfl⟩
    have := number_eq h
    unfold unitTimeOf
    split
    · exact absurd rfl hn
    · rw [this]; rfl

/-- the checks pass. -/
theorem check_eq {s : Site n k} {items : List (Spec.Written × Str × JVal)} {d : Dict Str JVal} {cf : CmdFile} {r : Spec.Request}
    (hr : Spec.Requested s items cf r) (hacc : Spec.Acceptable s.fs r) (a : Option (JAggr × Bool × Bool))
    (hin : asText d "inputFile" = some r.input) (hout : asText d "outDir" = some r.outDir) :
    ∃ u, checkParams s.fs (params d (defined r cf a)) = .ok ⟨Spec.folder r.outDir, r.level, u⟩ ∧
      JVal.toInt u = .ok r.unitTime := by
  obtain ⟨u, hu, hz⟩ := unit_eq hr.unitTime
  refine ⟨u, ?_, hz⟩
  have h1 : given (params d (defined r cf a)).inputFile = true := by
    show given (asText d "inputFile") = true
    rw [hin]
    exact decide_eq_true ⟨by simp, fun h => hacc.input.1 (Option.some.inj h)⟩
  have h2 : s.fs.isFile ((params d (defined r cf a)).inputFile.getD []) = true := by
    show s.fs.isFile ((asText d "inputFile").getD []) = true
    rw [hin]
    exact hacc.input.2
  have h3 : outDirOf s.fs (params d (defined r cf a)).outDir = .ok (Spec.folder r.outDir) := by
    show outDirOf s.fs ((asText d "outDir").getD []) = _
    rw [hout, outDir_eq, Option.getD_some]
    by_cases hd : r.outDir = ['.', '/']
    · rw [if_pos hd]
      unfold Spec.folder
      rw [if_pos (Or.inl hd)]
    · rw [if_neg hd, if_pos]
      exact hacc.folder.resolve_left hd
  have h4 : levelOf (params d (defined r cf a)).level = .ok r.level := level_eq hr.level
  have h5 : unitTimeOf (params d (defined r cf a)).unitTime = .ok u := hu
  have h6 : ¬ (givenInt (params d (defined r cf a)).tstart ∧ givenInt (params d (defined r cf a)).tend ∧
      ¬ (params d (defined r cf a)).tstart.getD 0 ≤ (params d (defined r cf a)).tend.getD 0) := by
    show ¬ (givenInt (numberOf (JVal.ofOption .int r.tstart)) ∧ givenInt (numberOf (JVal.ofOption .int r.tend)) ∧
      ¬ (numberOf (JVal.ofOption .int r.tstart)).getD 0 ≤ (numberOf (JVal.ofOption .int r.tend)).getD 0)
    rw [number_of, number_of]
    rintro ⟨g1, g2, g3⟩
    cases ht : r.tstart with
    | none => rw [ht] at g1; simp [givenInt] at g1
    | some x =>
      cases hy : r.tend with
      | none => rw [hy] at g2; simp [givenInt] at g2
      | some y =>
        rw [ht, hy] at g3
        exact g3 (hacc.window x y ht hy)
  have h7 : ¬ ((params d (defined r cf a)).doCorrection ∧ ¬ (given (params d (defined r cf a)).gemFormula ∧
      given (params d (defined r cf a)).demMap ∧ given (params d (defined r cf a)).formula)) := by
    rintro ⟨g1, g2⟩
    have g1 : r.correction.isSome = true := g1
    cases hc : r.correction with
    | none => rw [hc] at g1; cases g1
    | some c =>
      obtain ⟨f, g, e⟩ := c
      have hdem := hacc.dem f g e hc
      rcases hr.correction with ⟨-, h⟩ | ⟨f', g', d1, d', hf, hg, -, -, h⟩
      · rw [hc] at h; cases h
      · rw [hc] at h
        simp only [Option.some.injEq, Prod.mk.injEq] at h
        apply g2
        show given (r.correction.map fun c => c.2.1) = true ∧ given (r.correction.map fun c => c.2.2) = true ∧
          given (r.correction.map fun c => c.1) = true
        rw [hc]
        refine ⟨?_, ?_, ?_⟩
        · exact decide_eq_true ⟨by simp, fun hx => hg.2 (by rw [← h.2.1]; exact Option.some.inj hx)⟩
        · exact decide_eq_true ⟨by simp, fun hx => hdem.1 (Option.some.inj hx)⟩
        · exact decide_eq_true ⟨by simp, fun hx => hf.2 (by rw [← h.1]; exact Option.some.inj hx)⟩
  have h8 : ¬ ((params d (defined r cf a)).doCorrection ∧
      s.fs.isFile ((params d (defined r cf a)).demMap.getD []) = false) := by
    rintro ⟨g1, g2⟩
    have g1 : r.correction.isSome = true := g1
    cases hc : r.correction with
    | none => rw [hc] at g1; cases g1
    | some c =>
      obtain ⟨f, g, e⟩ := c
      have hdem := hacc.dem f g e hc
      have g2 : s.fs.isFile ((r.correction.map fun c => c.2.2).getD []) = false := g2
      rw [hc] at g2
      have g2 : s.fs.isFile e = false := g2
      rw [hdem.2] at g2
      cases g2
  unfold checkParams
  rw [h3, h4, h5]
  rw [if_neg (by rw [h1]; decide), if_neg (by rw [h2]; decide),
    if_neg (by
      show ¬ (s.fs.isFile r.lonMap = false ∨ s.fs.isFile r.latMap = false)
      rw [hacc.maps.1, hacc.maps.2.1]; decide),
    if_neg (by
      show ¬ s.fs.isFile r.clone = false
      rw [hacc.maps.2.2]; decide),
    if_neg (by
      show ¬ r.mode ∉ allowedMethods
      exact not_not.2 hacc.mode)]
  simp only [ok_bind]
  rw [if_neg h6, if_neg h7, if_neg h8]
  rfl

theorem join_eq {dir name : Str} (h0 : dir ≠ []) : joinPath dir name = Spec.folder dir ++ name := by
  unfold joinPath Spec.folder
  rw [if_neg h0]
  by_cases hl : dir.getLast? = some '/'
  · rw [if_pos hl, if_pos]
    right
    obtain ⟨a, ha⟩ := List.getLast?_eq_some_iff.1 hl
    exact ⟨a, ha⟩
  · rw [if_neg hl, if_neg]
    · simp
    · rintro (rfl | ⟨a, rfl⟩)
      · exact hl rfl
      · exact hl List.getLast?_concat

theorem join_folder (dir name : Str) : osJoin (Spec.folder dir) name = Spec.inFolder dir name := by
  unfold osJoin Spec.inFolder
  by_cases h : name.head? = some '/'
  · rw [if_pos h, if_pos h]
  · rw [if_neg h, if_neg h]
    have hl : ∃ a, Spec.folder dir = a ++ ['/'] := by
      unfold Spec.folder
      split
      · rename_i hd
        rcases hd with rfl | hd
        · exact ⟨['.'], rfl⟩
        · exact hd
      · exact ⟨dir, rfl⟩
    have hne : Spec.folder dir ≠ [] := by
      obtain ⟨a, ha⟩ := hl
      rw [ha]
      simp
    rw [join_eq hne]
    generalize Spec.folder dir = e at hl
    unfold Spec.folder
    rw [if_pos (Or.inr hl)]

theorem commands_path {cwd : Str} (hcwd : cwd ≠ []) (p : Str) : commandsPath cwd p = Spec.located cwd p := by
  unfold Spec.located
  split
  · rename_i r
    unfold commandsPath
    rw [if_pos (Or.inl (by rfl))]
    exact join_eq hcwd
  · rename_i r
    unfold commandsPath
    rw [if_pos (Or.inr (by rfl))]
    exact join_eq hcwd
  · rename_i h1 h2
    unfold commandsPath
    rw [if_neg]
    rintro (h | h)
    · rw [List.isPrefixOf_iff_prefix] at h
      obtain ⟨r, h⟩ := h
      exact h1 r h.symm
    · rw [List.isPrefixOf_iff_prefix] at h
      obtain ⟨r, h⟩ := h
      exact h2 r h.symm

theorem status_eq (e : PyErr) : statusOf e = Spec.failure e := by
  unfold statusOf
  cases e with
  | app c =>
    rw [if_pos (show (PyErr.app c).isApp = true from rfl)]
    by_cases hc : c = 3000
    · subst hc; rfl
    · rw [if_neg (by intro h; injection h with h; exact hc h)]
      unfold Spec.failure
      split
      · rename_i h; injection h with h; exact absurd h hc
      · rfl
      · rename_i h; cases h
      · rename_i h _; exact absurd rfl (h c)
  | _ => rfl

end CommandRun

/-- what is certain after the checks. -/
theorem CommandRun.check_ok {fs : Fs} {p : Params} {c : Checked} (h : checkParams fs p = .ok c) :
    given p.inputFile = true ∧ fs.isFile (p.inputFile.getD []) = true ∧
    (fs.isFile p.lonMap = true ∧ fs.isFile p.latMap = true) ∧ fs.isFile p.clone = true ∧ p.mode ∈ allowedMethods ∧
    (∃ u, outDirOf fs p.outDir = .ok u) ∧
    ¬ (givenInt p.tstart ∧ givenInt p.tend ∧ ¬ p.tstart.getD 0 ≤ p.tend.getD 0) ∧
    ¬ (p.doCorrection ∧ fs.isFile (p.demMap.getD []) = false) := by
  unfold checkParams at h
  have ft : ∀ b : Bool, ¬ b = false → b = true := by decide
  by_cases c1 : given p.inputFile = false
  · rw [if_pos c1] at h; cases h
  by_cases c2 : fs.isFile (p.inputFile.getD []) = false
  · rw [if_neg c1, if_pos c2] at h; cases h
  by_cases c3 : fs.isFile p.lonMap = false ∨ fs.isFile p.latMap = false
  · rw [if_neg c1, if_neg c2, if_pos c3] at h; cases h
  by_cases c4 : fs.isFile p.clone = false
  · rw [if_neg c1, if_neg c2, if_neg c3, if_pos c4] at h; cases h
  by_cases c5 : p.mode ∉ allowedMethods
  · rw [if_neg c1, if_neg c2, if_neg c3, if_neg c4, if_pos c5] at h; cases h
  rw [if_neg c1, if_neg c2, if_neg c3, if_neg c4, if_neg c5] at h
  push Not at c3 c5
  cases hu : outDirOf fs p.outDir with
  | error e => rw [hu] at h; cases h
  | ok u =>
  rw [hu] at h
  cases hl : levelOf p.level with
  | error e => rw [hl] at h; cases h
  | ok l =>
  rw [hl] at h
  cases ht : unitTimeOf p.unitTime with
  | error e => rw [ht] at h; cases h
  | ok t =>
  rw [ht] at h
  simp only [pure_bind, ok_bind] at h
  by_cases c6 : givenInt p.tstart ∧ givenInt p.tend ∧ ¬ p.tstart.getD 0 ≤ p.tend.getD 0
  · rw [if_pos c6] at h; cases h
  by_cases c7 : p.doCorrection ∧ fs.isFile (p.demMap.getD []) = false
  · rw [if_neg c6] at h
    split at h
    · cases h
    · cases h
  exact ⟨ft _ c1, ft _ c2, ⟨ft _ c3.1, ft _ c3.2⟩, ft _ c4, c5, ⟨u, rfl⟩, c6, c7⟩

namespace Spec

/-- A command: the options written (each well formed), its command file, no configuration command and one input file;
together they make the request `r`, which can be met. -/
structure Command (s : Site n k) (items : List (Written × Str × JVal)) (r : Request) : Prop where
  written : ∀ q ∈ items, Sets q.1 q.2.1 q.2.2
  cwd : s.cwd ≠ []
  file : ∃ cmd, LastGiven items "commandsFile".toList (.str cmd) ∧ s.fs.isFile (located s.cwd cmd) = true ∧
    Requested s items (s.commands (located s.cwd cmd)) r
  run : Absent items "downloadConf" ∧ Absent items "checkConf" ∧ Absent items "inputFile2"
  acceptable : Acceptable s.fs r

/-- The arguments of the program. -/
def argv (items : List (Written × Str × JVal)) : List Str := items.flatMap fun q => q.1.words

end Spec

/-- What the program makes of a command, with one input file or two. -/
theorem CommandRun.command_made (s : Site n k) (items : List (Spec.Written × Str × JVal)) (r : Spec.Request)
    (h : ∀ q ∈ items, Spec.Sets q.1 q.2.1 q.2.2) (hcwd : s.cwd ≠ [])
    (hfile : ∃ cmd, Spec.LastGiven items "commandsFile".toList (.str cmd) ∧
      s.fs.isFile (Spec.located s.cwd cmd) = true ∧ Spec.Requested s items (s.commands (Spec.located s.cwd cmd)) r)
    (hW : Spec.Absent items "downloadConf") (hK : Spec.Absent items "checkConf") (hacc : Spec.Acceptable s.fs r) :
    ∃ (d : Dict Str JVal) (cmd : Str) (a : Option (JAggr × Bool × Bool)) (u : JVal),
      parseArgs (Spec.argv items) = .ok (some d) ∧ isConfigCommand (argsOf d) = false ∧
      (∀ k x, Spec.LastGiven items k x → Dict.get? d k = some x) ∧
      (∀ name : String, Spec.Absent items name → Dict.get? d name.toList = Dict.get? defaults name.toList) ∧
      Spec.LastGiven items "commandsFile".toList (.str cmd) ∧
      readCommands s d = .ok (s.commands (Spec.located s.cwd cmd)) ∧
      Spec.Requested s items (s.commands (Spec.located s.cwd cmd)) r ∧
      CommandRun.context s d = .ok (defined r (s.commands (Spec.located s.cwd cmd)) a,
        ⟨Spec.folder r.outDir, r.level, u⟩) ∧
      CommandRun.fileIn s d (defined r (s.commands (Spec.located s.cwd cmd)) a) ⟨Spec.folder r.outDir, r.level, u⟩ =
        .ok (Spec.runOf s r) ∧
      ∀ o x, Spec.Chosen items (s.commands (Spec.located s.cwd cmd)).base s.tblDir s.geoDir o x →
        optValue (cliOf d) (s.commands (Spec.located s.cwd cmd)).base s.tblDir s.geoDir o = .ok x := by
  obtain ⟨cmd, hc, hf, hr⟩ := hfile
  have h0 : items ≠ [] := by
    rintro rfl
    obtain ⟨pre, w, post, he, -⟩ := hc
    exact absurd he (by simp)
  obtain ⟨d, hp, hd, ha⟩ := parsed items h0 h
  have hcmd : asText d "commandsFile" = some cmd := by
    unfold asText; rw [hd _ _ hc]
  have hin : asText d "inputFile" = some r.input := by
    unfold asText; rw [hd _ _ hr.input]
  have hout : asText d "outDir" = some r.outDir := by
    rcases hr.outDir with hl | ⟨hab, he⟩
    · unfold asText; rw [hd _ _ hl]
    · rw [asText_absent (ha _ hab)]
      injection he with he
      rw [he]
      decide +kernel
  have hmem : asInt d "perturbationNumber" = r.member := by
    rcases hr.member with hl | ⟨hab, he⟩
    · unfold asInt
      rw [hd _ _ hl]
      cases r.member <;> rfl
    · rw [asInt_absent (ha _ hab)]
      cases hm : r.member with
      | none => decide +kernel
      | some z => rw [hm] at he; cases he
  have hnoc : isConfigCommand (argsOf d) = false := by
    unfold isConfigCommand argsOf
    dsimp only
    rw [asText_absent (ha _ hW)]
    unfold asFlag
    rw [ha _ hK]
    decide +kernel
  obtain ⟨a, hdef, hag⟩ := define_eq h hd ha hr
  obtain ⟨u, hchk, hu⟩ := check_eq (d := d) hr hacc a hin hout
  have hctx : CommandRun.context s d = .ok (defined r (s.commands (Spec.located s.cwd cmd)) a,
      ⟨Spec.folder r.outDir, r.level, u⟩) := by
    unfold CommandRun.context readCommands
    rw [hcmd]
    dsimp only
    rw [commands_path hcwd, if_pos hf]
    dsimp only
    rw [hdef]
    dsimp only
    rw [hchk]
    rfl
  have hfile : CommandRun.fileIn s d (defined r (s.commands (Spec.located s.cwd cmd)) a)
      ⟨Spec.folder r.outDir, r.level, u⟩ = .ok (Spec.runOf s r) := by
    unfold CommandRun.fileIn
    simp only [hu, ok_bind]
    rw [show aggrOpts (defined r (s.commands (Spec.located s.cwd cmd)) a).aggr = .ok r.aggr from hag]
    rw [show needInt (defined r (s.commands (Spec.located s.cwd cmd)) a).fmap = .ok r.fmap from rfl]
    rw [show needInt (defined r (s.commands (Spec.located s.cwd cmd)) a).ext = .ok r.ext from rfl]
    simp only [ok_bind, hin, Option.getD_some, hmem]
    show Except.ok _ = Except.ok _
    congr 1
    unfold Spec.runOf defined
    simp only [number_of]
    rw [hr.shortName]
    rfl
  have hread : readCommands s d = .ok (s.commands (Spec.located s.cwd cmd)) := by
    unfold readCommands
    rw [hcmd]
    dsimp only
    rw [commands_path hcwd, if_pos hf]
  exact ⟨d, cmd, a, u, hp, hnoc, hd, ha, hc, hread, hr, hctx, hfile, fun o x hx => chosen_value h hd ha hx⟩

/-- What the program makes of a command. -/
theorem CommandRun.command_core (s : Site n k) (items : List (Spec.Written × Str × JVal)) (r : Spec.Request)
    (hcom : Spec.Command s items r) :
    ∃ (d : Dict Str JVal) (cmd : Str) (a : Option (JAggr × Bool × Bool)) (u : JVal),
      parseArgs (Spec.argv items) = .ok (some d) ∧ isConfigCommand (argsOf d) = false ∧
      given (asText d "inputFile2") = false ∧ Spec.LastGiven items "commandsFile".toList (.str cmd) ∧
      readCommands s d = .ok (s.commands (Spec.located s.cwd cmd)) ∧
      Spec.Requested s items (s.commands (Spec.located s.cwd cmd)) r ∧
      CommandRun.context s d = .ok (defined r (s.commands (Spec.located s.cwd cmd)) a,
        ⟨Spec.folder r.outDir, r.level, u⟩) ∧
      CommandRun.fileIn s d (defined r (s.commands (Spec.located s.cwd cmd)) a) ⟨Spec.folder r.outDir, r.level, u⟩ =
        .ok (Spec.runOf s r) ∧
      ∀ o x, Spec.Chosen items (s.commands (Spec.located s.cwd cmd)).base s.tblDir s.geoDir o x →
        optValue (cliOf d) (s.commands (Spec.located s.cwd cmd)).base s.tblDir s.geoDir o = .ok x := by
  obtain ⟨h, hcwd, hfile, ⟨hW, hK, hI⟩, hacc⟩ := hcom
  obtain ⟨d, cmd, a, u, hp, hnoc, -, ha, hrest⟩ := CommandRun.command_made s items r h hcwd hfile hW hK hacc
  have hno2 : given (asText d "inputFile2") = false := by
    rw [asText_absent (ha _ hI)]
    decide +kernel
  exact ⟨d, cmd, a, u, hp, hnoc, hno2, hrest⟩

/-- **C143.** A command line with options in any order and spelling, and its command file, make one request: every option
has the value typed last, else the one of the command file, else its default. If files and folder are there and the format is PCRaster, the run is
the one the request describes, and its maps are put in the folder asked for; the exit status is 0 if they are all
written. -/
theorem command_settings (ne : NumExpr) (s : Site n k) (items : List (Spec.Written × Str × JVal)) (r : Spec.Request)
    (hcom : Spec.Command s items r) (hfmt : r.format = "pcraster".toList) :
    CommandRun.run ne s (Spec.argv items) =
      match (Spec.runOf s r).pcraster ne with
      | .ok files => .ended (.ok 0) (files.map fun p => (Spec.inFolder r.outDir p.1, p.2))
      | .error e => .ended (Spec.failure e) [] := by
  obtain ⟨d, cmd, a, u, hp, hnoc, hno2, -, -, -, hctx, hfile, -⟩ := CommandRun.command_core s items r hcom
  unfold CommandRun.run
  rw [hp]
  dsimp only
  rw [hnoc, if_neg (by decide), hctx]
  dsimp only
  rw [hno2, if_neg (by decide), if_pos (show (defined r (s.commands (Spec.located s.cwd cmd)) a).format = _ from congrArg JVal.str hfmt), hfile]
  show (match (Spec.runOf s r).pcraster ne with | .error e => _ | .ok files => _) = _
  cases (Spec.runOf s r).pcraster ne with
  | error e => dsimp only; rw [status_eq]
  | ok files =>
    dsimp only
    simp only [join_folder]

open Spec TableApply Converter Aggregator

/-- the name of a map begins as the prefix does. -/
theorem CommandRun.map_place (dir pre : Str) (fmap ext i : Int) (h0 : pre ≠ []) (hs : pre.head? ≠ some '/') :
    Spec.inFolder dir (pcrName pre fmap ext i) = Spec.folder dir ++ pcrName pre fmap ext i := by
  unfold Spec.inFolder
  rw [if_neg]
  cases pre with
  | nil => exact absurd rfl h0
  | cons c t =>
    unfold pcrName
    simpa using hs

/-- **C144.** A command without aggregation: command line and command file make the request `r`; the GRIB file named on
the command line is indexed. One map is written for every message of the parameter that the options ask for, in the order
of the end steps, numbered from the first map number in the given steps, in the output folder, each holding what the
interpolation table gives for the converted field (corrected for height and shown through the clone); the exit status is
0. -/
theorem command_plain_run (ne : NumExpr) (s : Site n k) (items : List (Spec.Written × Str × JVal)) (r : Spec.Request)
    (hcom : Spec.Command s items r) (hfmt : r.format = "pcraster".toList) (hpre : r.namePrefix ≠ [] ∧ r.namePrefix.head? ≠ some '/')
    (f : Num → Num) (mv : ℚ) (file : List (GMsg (Arr n))) (hfile : s.grib r.input = (file, true))
    (hup : r.shortName.map Char.toUpper ≠ r.shortName) (hagg : r.aggr = none)
    (p : SelPar) (hp : p = ⟨r.shortName, r.level, r.dataTime, r.dataDate, r.member⟩)
    (E : Int) (hE : Spec.LastStep file p E) (sel : List (GMsg (Arr n)))
    (hsel : sel = Spec.taken file p (r.tstart.getD 0) (Spec.windowEnd r.tend E)) (hne : sel ≠ [])
    (nj : Int) (hnj : ∀ m ∈ sel, m.nj = nj) (hdiff : sel.Pairwise Spec.Differ)
    (hmv : ∀ m ∈ sel, m.missingValue = .fin mv) (hdate : ∀ m ∈ sel, (Spec.reference m).isSome = true)
    (hconv : Means ne (r.conversion.map fun c => some c.1) f)
    (t : Table k) (ht : t = (s.tables r.mode r.latMap r.lonMap r.input).1) (hfit : Fits t n) :
    ∃ (ord : List (GMsg (Arr n))) (files : List (Str × (Fin k → Num))), ord.Perm sel ∧
      ord.Pairwise (fun a b => a.endStep ≤ b.endStep) ∧
      CommandRun.run ne s (Spec.argv items) = .ended (.ok 0) files ∧ files.length = ord.length ∧
      ∀ (j : Nat) m, ord[j]? = some m →
        files[j]? = some (Spec.folder r.outDir ++ pcrName r.namePrefix r.fmap r.ext (j + 1), fun c =>
          shown (s.clone r.clone).1 (s.clone r.clone).2
            (finalCell (r.correction.map fun q => (s.heights q.1 q.2.1 q.2.2).1) (cellOf t (s.mvOf r.latMap)
              (Spec.cutField ((r.conversion.map Prod.snd).getD false) (convertedField mv f m.values)) c) c) c) := by
  subst hp ht
  have e1 : (Spec.runOf s r).file = file := congrArg Prod.fst hfile
  have e2 : (Spec.runOf s r).indexable = true := congrArg Prod.snd hfile
  obtain ⟨ord, files, h1, h2, h3, h4, h5⟩ := file_plain_run ne (Spec.runOf s r) f mv e2 hup hagg E (by rw [e1]; exact hE)
    sel (by rw [e1]; exact hsel) hne nj hnj hdiff hmv hdate hconv hfit
  refine ⟨ord, (files.map fun p => (Spec.inFolder r.outDir p.1, p.2)), h1, h2, ?_, ?_, ?_⟩
  · rw [command_settings ne s items r hcom hfmt, h3]
  · rw [List.length_map]; exact h4
  · intro j m hj
    have hcut : ((Spec.runOf s r).conversion.isSome && (Spec.runOf s r).cutOff) = (r.conversion.map Prod.snd).getD false := by
      show ((r.conversion.map fun p => some p.1).isSome && (r.conversion.map Prod.snd).getD false) = _
      cases r.conversion <;> simp
    rw [List.getElem?_map, h5 j m hj, hcut]
    show some (Spec.inFolder r.outDir (pcrName r.namePrefix r.fmap r.ext (j + 1)), _) = _
    rw [CommandRun.map_place _ _ _ _ _ hpre.1 hpre.2]
    rfl

/-- **C145**, accumulation: the same for a command whose command file asks for accumulation over `a` hours (C125). -/
theorem command_accumulation_run (ne : NumExpr) (s : Site n k) (items : List (Spec.Written × Str × JVal))
    (r : Spec.Request) (hcom : Spec.Command s items r) (hfmt : r.format = "pcraster".toList) (hpre : r.namePrefix ≠ [] ∧ r.namePrefix.head? ≠ some '/')
    (f : Num → Num) (mv : ℚ) (file : List (GMsg (Arr n))) (hfile : s.grib r.input = (file, true))
    (hup : r.shortName.map Char.toUpper ≠ r.shortName) (a : Int) (half forced : Bool)
    (hagg : r.aggr = some ⟨a, "accumulation", half, forced⟩) (hpos : 0 < a)
    (p : SelPar) (hp : p = ⟨r.shortName, r.level, r.dataTime, r.dataDate, r.member⟩)
    (E : Int) (hE : Spec.LastStep file p E) (hreg : Spec.StepsDiffer file p) (start hi : Int)
    (hst : start = r.tstart.getD 0) (hhi : hi = Spec.windowEnd r.tend E) (sel : List (GMsg (Arr n)))
    (hsel : sel = Spec.taken file p (max 0 (start - a)) hi) (hne : sel ≠ [])
    (nj : Int) (hnj : ∀ m ∈ sel, m.nj = nj) (hdiff : (sel.map GMsg.endStep).Nodup)
    (hmv : ∀ m ∈ sel, m.missingValue = .fin mv) (hdate : ∀ m ∈ sel, (Spec.reference m).isSome = true)
    (hconv : Means ne (r.conversion.map fun c => some c.1) f)
    (t : Table k) (ht : t = (s.tables r.mode r.latMap r.lonMap r.input).1) (hfit : Fits t n)
    (hcur : ∀ u, Spec.InRange (Spec.firstEnd start a) hi a u →
      (∃ m ∈ sel, m.endStep = u) ∧ (u - a = 0 ∨ ∃ m ∈ sel, m.endStep = u - a)) :
    ∃ files, CommandRun.run ne s (Spec.argv items) = .ended (.ok 0) files ∧
      (∀ j : Nat, j < files.length ↔ Spec.firstEnd start a + j * a ≤ hi) ∧
      ∀ (j : Nat) u, u = Spec.firstEnd start a + j * a → u ≤ hi →
        ∃ (mc : GMsg (Arr n)) (vp D : Arr n), mc ∈ sel ∧ mc.endStep = u ∧
          (if u = a ∧ (forced = true ∨ ∀ m ∈ sel, m.endStep ≠ 0) then
            (∀ i, vp.data i = 0 ∧ vp.masked i = false)
           else ∃ mp ∈ sel, mp.endStep = u - a ∧ vp = convertedField mv f mp.values) ∧
          (∀ i, D.data i = ((convertedField mv f mc.values).data i - vp.data i) * Num.ofInt r.unitTime / Num.ofInt a ∧
            D.masked i = vp.masked i) ∧
          files[j]? = some (Spec.folder r.outDir ++ pcrName r.namePrefix r.fmap r.ext (j + 1), fun c =>
            shown (s.clone r.clone).1 (s.clone r.clone).2
              (finalCell (r.correction.map fun q => (s.heights q.1 q.2.1 q.2.2).1) (cellOf t (s.mvOf r.latMap)
                (Spec.cutField ((r.conversion.map Prod.snd).getD false) D) c) c) c) := by
  subst hp ht
  have e1 : (Spec.runOf s r).file = file := congrArg Prod.fst hfile
  have e2 : (Spec.runOf s r).indexable = true := congrArg Prod.snd hfile
  obtain ⟨files, h3, h4, h5⟩ := file_accumulation_run ne (Spec.runOf s r) f mv e2 hup _ hagg rfl a rfl hpos E
    (by rw [e1]; exact hE) (by rw [e1]; exact hreg) start hi hst hhi sel (by rw [e1]; exact hsel) hne nj hnj hdiff hmv
    hdate hconv hfit hcur
  refine ⟨(files.map fun p => (Spec.inFolder r.outDir p.1, p.2)), ?_, ?_, ?_⟩
  · rw [command_settings ne s items r hcom hfmt, h3]
  · intro j
    rw [List.length_map]; exact h4 j
  · intro j u hu hle
    obtain ⟨mc, vp, D, g1, g2, g3, g4, g5⟩ := h5 j u hu hle
    refine ⟨mc, vp, D, g1, g2, g3, g4, ?_⟩
    have hcut : ((Spec.runOf s r).conversion.isSome && (Spec.runOf s r).cutOff) = (r.conversion.map Prod.snd).getD false := by
      show ((r.conversion.map fun p => some p.1).isSome && (r.conversion.map Prod.snd).getD false) = _
      cases r.conversion <;> simp
    rw [List.getElem?_map, g5, hcut]
    show some (Spec.inFolder r.outDir (pcrName r.namePrefix r.fmap r.ext (j + 1)), _) = _
    rw [CommandRun.map_place _ _ _ _ _ hpre.1 hpre.2]
    rfl

/-- **C145**, average (C125). -/
theorem command_average_run (ne : NumExpr) (s : Site n k) (items : List (Spec.Written × Str × JVal))
    (r : Spec.Request) (hcom : Spec.Command s items r) (hfmt : r.format = "pcraster".toList) (hpre : r.namePrefix ≠ [] ∧ r.namePrefix.head? ≠ some '/')
    (f : Num → Num) (mv : ℚ) (file : List (GMsg (Arr n))) (hfile : s.grib r.input = (file, true))
    (hup : r.shortName.map Char.toUpper ≠ r.shortName) (a : Int) (forced : Bool)
    (hagg : r.aggr = some ⟨a, "average", false, forced⟩) (hpos : 0 < a)
    (p : SelPar) (hp : p = ⟨r.shortName, r.level, r.dataTime, r.dataDate, r.member⟩)
    (hinst : ∀ m ∈ file, Spec.named p m = true → m.stepType ≠ "accum".toList)
    (E : Int) (hE : Spec.LastStep file p E) (hreg : Spec.StepsDiffer file p) (start hi : Int)
    (hst : r.tstart = some start) (h0 : start ≠ 0) (hhi : hi = Spec.windowEnd r.tend E) (sel : List (GMsg (Arr n)))
    (hsel : sel = Spec.taken file p (max 0 (start - a)) hi)
    (nj : Int) (hnj : ∀ m ∈ sel, m.nj = nj) (hdiff : (sel.map GMsg.endStep).Nodup)
    (hmv : ∀ m ∈ sel, m.missingValue = .fin mv) (hdate : ∀ m ∈ sel, (Spec.reference m).isSome = true)
    (hconv : Means ne (r.conversion.map fun c => some c.1) f)
    (t : Table k) (ht : t = (s.tables r.mode r.latMap r.lonMap r.input).1) (hfit : Fits t n)
    (hex : ∃ m ∈ sel, hi ≤ m.endStep) :
    ∃ files, CommandRun.run ne s (Spec.argv items) = .ended (.ok 0) files ∧
      (∀ j : Nat, j < files.length ↔ start + j * a ≤ hi) ∧
      ∀ (j : Nat) u, u = start + j * a → u ≤ hi →
        ∃ (F : Int → GMsg (Arr n)) (D : Arr n),
          (∀ h, u - a < h → h ≤ u → F h ∈ sel ∧ h ≤ (F h).endStep ∧
            ∀ m ∈ sel, h ≤ m.endStep → (F h).endStep ≤ m.endStep) ∧
          (∀ i, D.data i = ((List.range a.toNat).map fun (y : Nat) =>
              (convertedField mv f (F (u - a + 1 + (y : Int))).values).data i).sum / Num.ofInt a ∧
            D.masked i = false) ∧
          files[j]? = some (Spec.folder r.outDir ++ pcrName r.namePrefix r.fmap r.ext (j + 1), fun c =>
            shown (s.clone r.clone).1 (s.clone r.clone).2
              (finalCell (r.correction.map fun q => (s.heights q.1 q.2.1 q.2.2).1) (cellOf t (s.mvOf r.latMap)
                (Spec.cutField ((r.conversion.map Prod.snd).getD false) D) c) c) c) := by
  subst hp ht
  have e1 : (Spec.runOf s r).file = file := congrArg Prod.fst hfile
  have e2 : (Spec.runOf s r).indexable = true := congrArg Prod.snd hfile
  obtain ⟨files, h3, h4, h5⟩ := file_average_run ne (Spec.runOf s r) f mv e2 hup _ hagg rfl rfl a rfl hpos
    (by
      rw [e1]
      intro m hm hn hc
      exact hinst m hm hn (by rw [← hc, String.toList_ofList]))
    E (by rw [e1]; exact hE) (by rw [e1]; exact hreg) start hi
    (show start = r.tstart.getD 0 by rw [hst]; rfl) h0 hhi sel (by rw [e1]; exact hsel) nj hnj hdiff hmv hdate hconv hfit hex
  refine ⟨(files.map fun p => (Spec.inFolder r.outDir p.1, p.2)), ?_, ?_, ?_⟩
  · rw [command_settings ne s items r hcom hfmt, h3]
  · intro j
    rw [List.length_map]; exact h4 j
  · intro j u hu hle
    obtain ⟨F, D, g1, g2, g5⟩ := h5 j u hu hle
    refine ⟨F, D, g1, g2, ?_⟩
    have hcut : ((Spec.runOf s r).conversion.isSome && (Spec.runOf s r).cutOff) = (r.conversion.map Prod.snd).getD false := by
      show ((r.conversion.map fun p => some p.1).isSome && (r.conversion.map Prod.snd).getD false) = _
      cases r.conversion <;> simp
    rw [List.getElem?_map, g5, hcut]
    show some (Spec.inFolder r.outDir (pcrName r.namePrefix r.fmap r.ext (j + 1)), _) = _
    rw [CommandRun.map_place _ _ _ _ _ hpre.1 hpre.2]
    rfl

/-- **C145.** A command that finds no message of the parameter writes nothing and ends with exit status 0. -/
theorem command_no_messages (ne : NumExpr) (s : Site n k) (items : List (Spec.Written × Str × JVal)) (r : Spec.Request)
    (hcom : Spec.Command s items r) (hfmt : r.format = "pcraster".toList) (hidx : (s.grib r.input).2 = true)
    (h : ∀ m ∈ (s.grib r.input).1, m.shortName ≠ r.shortName) :
    CommandRun.run ne s (Spec.argv items) = .ended (.ok 0) [] := by
  rw [command_settings ne s items r hcom hfmt, file_no_named ne (Spec.runOf s r) hidx]
  · rfl
  · intro m hm
    unfold Spec.named
    rw [show decide (m.shortName = (Spec.runOf s r).sel.shortName) = false from decide_eq_false (h m hm)]
    rfl

namespace Spec

/-- What a request lacks: an input file, maps, a known method, an output folder, a window or a DEM. Left out: an empty
window that ends at step 0 (it is not noticed, C33). -/
def Unmet (fs : Fs) (r : Request) : Prop :=
  r.input = [] ∨ fs.isFile r.input = false ∨ fs.isFile r.latMap = false ∨ fs.isFile r.lonMap = false ∨
  fs.isFile r.clone = false ∨
  r.mode ∉ ["grib_nearest", "grib_invdist", "nearest", "invdist", "adw", "cdd", "bilinear", "triangulation",
    "bilinear_delaunay"].map String.toList ∨
  (r.outDir ≠ "./".toList ∧ fs.isDir (folder r.outDir) = false ∧ fs.canCreate (folder r.outDir) = false) ∨
  (∃ a b, r.tstart = some a ∧ r.tend = some b ∧ b < a ∧ a ≠ 0 ∧ b ≠ 0) ∨
  ∃ f g d, r.correction = some (f, g, d) ∧ fs.isFile d = false

/-- Command lines that are not accepted (C141). -/
inductive BadLine : List Str → Prop
  | empty : BadLine []
  | stray (items items' : List (Written × Str × JVal)) (strays : List Str) : (∀ q ∈ items, Sets q.1 q.2.1 q.2.2) →
      (∀ q ∈ items', Sets q.1 q.2.1 q.2.2) → strays ≠ [] → (∀ u ∈ strays, Loose u ∨ Unknown u) →
      BadLine (argv items ++ strays ++ argv items')
  | value (items : List (Written × Str × JVal)) (e : String × String × Takes) (name v : Str) (words rest : List Str) :
      (∀ q ∈ items, Sets q.1 q.2.1 q.2.2) → e ∈ valued → (name = e.1.toList ∨ name = e.2.1.toList) →
      (∀ x, ¬ Reads e.2.2 v x) →
      ((words = [name, v] ∧ (v.head? ≠ some '-' ∨ v = ['-'] ∨ NegDecimal v)) ∨ words = [name ++ '=' :: v]) →
      BadLine (argv items ++ words ++ rest)
  | novalue (items : List (Written × Str × JVal)) (e : String × String × Takes) (name : Str) (rest : List Str) :
      (∀ q ∈ items, Sets q.1 q.2.1 q.2.2) → e ∈ valued → (name = e.1.toList ∨ name = e.2.1.toList) →
      (rest = [] ∨ ∃ v r, rest = v :: r ∧ v.head? = some '-' ∧ v ≠ ['-'] ∧ ¬ NegDecimal v ∧ ' ' ∉ v) →
      BadLine (argv items ++ name :: rest)

end Spec

namespace CommandRun

/-- The program ends with result `res` before it computes a map: it refuses the arguments, prints the help, or finds no
context to run in. -/
def Early (s : Site n k) (line : List Str) (res : Result k) : Prop :=
  ((∃ e, parseArgs line = .error e) ∧ res = .ended (.ok 1) []) ∨ (parseArgs line = .ok none ∧ res = .help) ∨
  ∃ d, parseArgs line = .ok (some d) ∧ (isConfigCommand (argsOf d) = true ∨ ∃ e, CommandRun.context s d = .error e) ∧
    res = .ended (.ok 1) []

theorem run_early (ne : NumExpr) (s : Site n k) (line : List Str) (res : Result k) (h : Early s line res) :
    CommandRun.run ne s line = res := by
  unfold CommandRun.run
  rcases h with ⟨⟨e, h⟩, rfl⟩ | ⟨h, rfl⟩ | ⟨d, hp, hctx, rfl⟩
  · rw [h]
  · rw [h]
  · rw [hp]
    dsimp only
    rcases hctx with hk | ⟨e, hctx⟩
    · rw [hk]; rfl
    · rw [hctx]
      cases isConfigCommand (argsOf d) <;> rfl

theorem bad_line_early (s : Site n k) (line : List Str) (h : Spec.BadLine line) :
    Early s line (.ended (.ok 1) []) := by
  refine Or.inl ⟨⟨.app 10000, ?_⟩, rfl⟩
  cases h with
  | empty => exact no_arguments
  | stray items items' strays h h' h0 hs => exact stray_refused items items' h h' strays h0 hs
  | value items e name v words rest h he hn hv hw => exact bad_value_refused items h e he name v hn hv words hw rest
  | novalue items e name rest h he hn hr => exact missing_value_refused items h e he name hn rest hr

end CommandRun

/-- **C146.** A command line that is not accepted: nothing is written, the exit status is 1. -/
theorem command_bad_line (ne : NumExpr) (s : Site n k) (line : List Str) (h : Spec.BadLine line) :
    CommandRun.run ne s line = .ended (.ok 1) [] :=
  CommandRun.run_early ne s line _ (CommandRun.bad_line_early s line h)

theorem CommandRun.help_early (s : Site n k) (items : List (Spec.Written × Str × JVal))
    (h : ∀ q ∈ items, Spec.Sets q.1 q.2.1 q.2.2) (name : Str) (hn : name = "-h".toList ∨ name = "--help".toList) :
    CommandRun.Early s (Spec.argv items ++ [name]) .help :=
  Or.inr (Or.inl ⟨help_ends items h name hn, rfl⟩)

/-- **C146.** Help asked for after any options: it is printed and nothing is run. -/
theorem command_help (ne : NumExpr) (s : Site n k) (items : List (Spec.Written × Str × JVal))
    (h : ∀ q ∈ items, Spec.Sets q.1 q.2.1 q.2.2) (name : Str) (hn : name = "-h".toList ∨ name = "--help".toList) :
    CommandRun.run ne s (Spec.argv items ++ [name]) = .help :=
  CommandRun.run_early ne s _ _ (CommandRun.help_early s items h name hn)

theorem CommandRun.unmet_early (s : Site n k) (items : List (Spec.Written × Str × JVal)) (r : Spec.Request)
    (h : ∀ q ∈ items, Spec.Sets q.1 q.2.1 q.2.2) (hcwd : s.cwd ≠ []) (cmd : Str)
    (hc : Spec.LastGiven items "commandsFile".toList (.str cmd)) (hf : s.fs.isFile (Spec.located s.cwd cmd) = true)
    (hr : Spec.Requested s items (s.commands (Spec.located s.cwd cmd)) r) (hun : Spec.Unmet s.fs r) :
    CommandRun.Early s (Spec.argv items) (.ended (.ok 1) []) := by
  have h0 : items ≠ [] := by
    rintro rfl
    obtain ⟨pre, w, post, he, -⟩ := hc
    exact absurd he (by simp)
  obtain ⟨d, hp, hd, ha⟩ := parsed items h0 h
  have hcmd : asText d "commandsFile" = some cmd := by
    unfold asText; rw [hd _ _ hc]
  have hin : asText d "inputFile" = some r.input := by
    unfold asText; rw [hd _ _ hr.input]
  have hout : asText d "outDir" = some r.outDir := by
    rcases hr.outDir with hl | ⟨hab, he⟩
    · unfold asText; rw [hd _ _ hl]
    · rw [asText_absent (ha _ hab)]
      injection he with he
      rw [he]
      decide +kernel
  obtain ⟨a, hdef, -⟩ := define_eq h hd ha hr
  have hchk : ∀ c, checkParams s.fs (params d (defined r (s.commands (Spec.located s.cwd cmd)) a)) ≠ .ok c := by
    intro c hok
    have hpi : (params d (defined r (s.commands (Spec.located s.cwd cmd)) a)).inputFile = some r.input := hin
    have hpo : (params d (defined r (s.commands (Spec.located s.cwd cmd)) a)).outDir = r.outDir := by
      show (asText d "outDir").getD [] = _
      rw [hout]; rfl
    have hpt : (params d (defined r (s.commands (Spec.located s.cwd cmd)) a)).tstart = r.tstart := number_of _
    have hpe : (params d (defined r (s.commands (Spec.located s.cwd cmd)) a)).tend = r.tend := number_of _
    have hpc : (params d (defined r (s.commands (Spec.located s.cwd cmd)) a)).doCorrection = r.correction.isSome := rfl
    have hpd : (params d (defined r (s.commands (Spec.located s.cwd cmd)) a)).demMap =
      r.correction.map fun c => c.2.2 := rfl
    have hpl : (params d (defined r (s.commands (Spec.located s.cwd cmd)) a)).latMap = r.latMap := rfl
    have hpn : (params d (defined r (s.commands (Spec.located s.cwd cmd)) a)).lonMap = r.lonMap := rfl
    have hpk : (params d (defined r (s.commands (Spec.located s.cwd cmd)) a)).clone = r.clone := rfl
    have hpm : (params d (defined r (s.commands (Spec.located s.cwd cmd)) a)).mode = r.mode := rfl
    generalize params d (defined r (s.commands (Spec.located s.cwd cmd)) a) = p at *
    obtain ⟨q1, q2, q3, q4, q5, ⟨u, q6⟩, q7, q8⟩ := check_ok hok
    rw [hpi] at q1 q2
    rcases hun with g | g | g | g | g | g | ⟨g1, g2, g3⟩ | ⟨x, y, g1, g2, g3, g4, g5⟩ | ⟨f, g, e, g1, g2⟩
    · rw [g] at q1; exact absurd q1 (by decide)
    · rw [Option.getD_some, g] at q2; cases q2
    · rw [hpl, g] at q3; cases q3.2
    · rw [hpn, g] at q3; cases q3.1
    · rw [hpk, g] at q4; cases q4
    · rw [hpm] at q5; exact g q5
    · rw [hpo, outDir_eq, if_neg (show ¬ r.outDir = ['.', '/'] from g1), if_neg] at q6
      · cases q6
      · rw [g2, g3]
        rintro (g | g) <;> cases g
    · refine q7 ⟨?_, ?_, ?_⟩
      · rw [hpt, g1]; simp [givenInt, g4]
      · rw [hpe, g2]; simp [givenInt, g5]
      · rw [hpt, hpe, g1, g2]
        exact not_le.2 g3
    · refine q8 ⟨by rw [hpc, g1]; rfl, ?_⟩
      rw [hpd, g1]
      exact g2
  have hctx : ∃ e, CommandRun.context s d = .error e := by
    unfold CommandRun.context readCommands
    rw [hcmd]
    dsimp only
    rw [commands_path hcwd, if_pos hf]
    dsimp only
    rw [hdef]
    dsimp only
    cases hk : checkParams s.fs (params d (defined r (s.commands (Spec.located s.cwd cmd)) a)) with
    | error e => exact ⟨e, rfl⟩
    | ok c => exact absurd hk (hchk c)
  exact Or.inr (Or.inr ⟨d, hp, Or.inr hctx, rfl⟩)

/-- **C146.** A command whose files, method, folder or window are not as they should be: nothing is written, the exit
status is 1. -/
theorem command_unmet (ne : NumExpr) (s : Site n k) (items : List (Spec.Written × Str × JVal)) (r : Spec.Request)
    (h : ∀ q ∈ items, Spec.Sets q.1 q.2.1 q.2.2) (hcwd : s.cwd ≠ []) (cmd : Str)
    (hc : Spec.LastGiven items "commandsFile".toList (.str cmd)) (hf : s.fs.isFile (Spec.located s.cwd cmd) = true)
    (hr : Spec.Requested s items (s.commands (Spec.located s.cwd cmd)) r) (hun : Spec.Unmet s.fs r) :
    CommandRun.run ne s (Spec.argv items) = .ended (.ok 1) [] :=
  CommandRun.run_early ne s _ _ (CommandRun.unmet_early s items r h hcwd cmd hc hf hr hun)

theorem CommandRun.no_commands_early (s : Site n k) (items : List (Spec.Written × Str × JVal)) (h0 : items ≠ [])
    (h : ∀ q ∈ items, Spec.Sets q.1 q.2.1 q.2.2) (hcwd : s.cwd ≠ [])
    (hc : Spec.Absent items "commandsFile" ∨
      (∃ cmd, Spec.LastGiven items "commandsFile".toList (.str cmd) ∧ s.fs.isFile (Spec.located s.cwd cmd) = false) ∨
      (∃ x, Spec.LastGiven items "downloadConf".toList (.str x) ∧ x ≠ []) ∨
      Spec.LastGiven items "checkConf".toList (.bool true)) :
    CommandRun.Early s (Spec.argv items) (.ended (.ok 1) []) := by
  obtain ⟨d, hp, hd, ha⟩ := parsed items h0 h
  have hctx : isConfigCommand (argsOf d) = true ∨ ∃ e, CommandRun.context s d = .error e := by
    rcases hc with hab | ⟨cmd, hl, hnf⟩ | ⟨x, hl, hx⟩ | hl
    · refine Or.inr ⟨.attributeError, ?_⟩
      unfold CommandRun.context readCommands
      rw [asText_absent (ha _ hab), show asText defaults "commandsFile" = none by decide +kernel]
    · refine Or.inr ⟨.app 0, ?_⟩
      unfold CommandRun.context readCommands
      have hcmd : asText d "commandsFile" = some cmd := by
        unfold asText; rw [hd _ _ hl]
      rw [hcmd]
      dsimp only
      rw [commands_path hcwd, hnf]
      rfl
    · left
      unfold isConfigCommand argsOf
      dsimp only
      have : asText d "downloadConf" = some x := by
        unfold asText; rw [hd _ _ hl]
      rw [this]
      have : given (some x) = true := by simp [given, hx]
      rw [this]
      rfl
    · left
      unfold isConfigCommand argsOf
      dsimp only
      have : asFlag d "checkConf" = true := by
        unfold asFlag; rw [hd _ _ hl]
      rw [this]
      simp
  exact Or.inr (Or.inr ⟨d, hp, hctx, rfl⟩)

/-- **C146.** A command without command file, or one whose command file is not there, or with one of the configuration
options `-W`, `-K`: nothing is written, the exit status is 1. -/
theorem command_no_commands (ne : NumExpr) (s : Site n k) (items : List (Spec.Written × Str × JVal)) (h0 : items ≠ [])
    (h : ∀ q ∈ items, Spec.Sets q.1 q.2.1 q.2.2) (hcwd : s.cwd ≠ [])
    (hc : Spec.Absent items "commandsFile" ∨
      (∃ cmd, Spec.LastGiven items "commandsFile".toList (.str cmd) ∧ s.fs.isFile (Spec.located s.cwd cmd) = false) ∨
      (∃ x, Spec.LastGiven items "downloadConf".toList (.str x) ∧ x ≠ []) ∨
      Spec.LastGiven items "checkConf".toList (.bool true)) :
    CommandRun.run ne s (Spec.argv items) = .ended (.ok 1) [] :=
  CommandRun.run_early ne s _ _ (CommandRun.no_commands_early s items h0 h hcwd hc)

/-! ## A concrete command -/

namespace Demo

/-- a command file: rain, accumulated over 6 hours, converted to mm and cut off. -/
def rainCmd : CmdFile where
  base := ⟨"tp".toList, .null, .str "18".toList, .null, .null, .null, .null, .null, .str "R".toList, .null, .null, .null,
    .null, .null, .null, .null, .null⟩
  applyConversion := .str "mm".toList
  correctionFormula := .null
  gem := .null
  demMap := .null
  cloneMap := "/maps/clone.map".toList
  latMap := "{maps}lat.map".toList
  lonMap := "{maps}lon.map".toList
  mode := some (.str "nearest".toList)
  unitTime := .null
  level := .null
  aggr := some (⟨.int 6, .str "accumulation".toList, none⟩, .null)

/-- the files. -/
def siteFiles : List Str := ["/w/./cmd.json", "rain.grb", "/maps/clone.map", "/maps/lat.map", "/maps/lon.map"].map String.toList

/-- the conversion to mm. -/
def mm : ConvEntry := ⟨"mm".toList, "x=x".toList, "mm".toList, .bool true⟩

/-- a corrector that is not used. -/
def flat : Height 1 := ⟨fun x _ _ => x, ⟨fun _ => .fin 0, none⟩, ⟨fun _ => .fin 0, none⟩, .nan, .nan⟩

/-- what the command finds. -/
def rainSite : Site 2 1 where
  fs := ⟨fun p => decide (p ∈ siteFiles), fun p => decide (p = "out/".toList), fun _ => false⟩
  commands := fun _ => rainCmd
  parameters := [("tp".toList, .one mm)]
  known := fun _ => true
  vars := [("maps".toList, "/maps/".toList)]
  special := fun _ => .error .typeError
  tblDir := []
  geoDir := []
  cwd := "/w".toList
  grib := fun _ => (rain, true)
  second := fun _ => ⟨0, ⟨[], false⟩⟩
  tables := fun _ _ _ _ => (.nearest fun _ => 1, .nearest fun _ => 1)
  mvOf := fun _ => .fin (-1)
  clone := fun _ => (none, .nan)
  heights := fun _ _ _ => (flat, flat)
  describe := fun _ => ("rain".toList, "m".toList)
  float := fun t => if t = "0.5".toList then some (1 / 2) else none
  overflow := fun _ => 0

/-- the command line. -/
def rainItems : List (Spec.Written × Str × JVal) := [
  (.apart "-c".toList "./cmd.json".toList, "commandsFile".toList, .str "./cmd.json".toList),
  (.equal "--inputFile".toList "rain.grb".toList, "inputFile".toList, .str "rain.grb".toList),
  (.joined "-s".toList "12".toList, "start".toList, .int 12),
  (.apart "-o".toList "out".toList, "outDir".toList, .str "out".toList)]

example : Spec.argv rainItems = ["-c", "./cmd.json", "--inputFile=rain.grb", "-s12", "-o", "out"].map String.toList := rfl

/-- the request they make. -/
def rainReq : Spec.Request where
  input := "rain.grb".toList
  outDir := "out".toList
  shortName := "tp".toList
  tstart := some 12
  tend := some 18
  dataTime := none
  dataDate := none
  level := none
  member := none
  conversion := some ("x=x".toList, true)
  correction := none
  mode := "nearest".toList
  latMap := "/maps/lat.map".toList
  lonMap := "/maps/lon.map".toList
  clone := "/maps/clone.map".toList
  aggr := some ⟨6, "accumulation", false, false⟩
  unitTime := 24
  namePrefix := "R".toList
  fmap := 1
  ext := 1
  format := "pcraster".toList

theorem rain_absent (name : String) (h : name.toList ∉ rainItems.map fun q => q.2.1) : Spec.Absent rainItems name := by
  intro q hq he
  exact h (List.mem_map.2 ⟨q, hq, he⟩)

theorem in_maps (f : Str) (h1 : '{' ∉ f) (h2 : '}' ∉ f) :
    Spec.Expands rainSite.vars ("{maps}".toList ++ f) ("/maps/".toList ++ f) := by
  refine ⟨[.var "maps".toList, .lit f], fun _ => "/maps/".toList, ?_, ?_, ?_, ?_, ?_⟩
  · intro g hg
    rcases List.mem_cons.1 hg with rfl | hg
    · exact ⟨by decide, by decide⟩
    · rw [List.mem_singleton] at hg
      subst hg
      exact ⟨h1, h2⟩
  · simp [Spec.Seg.text]
  · intro v hv
    rcases List.mem_cons.1 hv with hv | hv
    · injection hv with hv
      subst hv
      decide +kernel
    · rw [List.mem_singleton] at hv
      cases hv
  · intro v
    show '{' ∉ "/maps/".toList
    decide
  · simp [Spec.Seg.subst]

theorem rain_command : Spec.Command rainSite rainItems rainReq where
  written := by
    intro q hq
    simp only [rainItems, List.mem_cons, List.not_mem_nil, or_false] at hq
    rcases hq with rfl | rfl | rfl | rfl
    · exact ⟨("-c", "--commandsFile", .text), by unfold Spec.valued; simp, Or.inl rfl, by decide, rfl, Or.inl (by decide)⟩
    · exact ⟨("-i", "--inputFile", .text), by unfold Spec.valued; simp, Or.inr rfl, by decide, rfl⟩
    · exact ⟨("-s", "--start", .number), by unfold Spec.valued; simp, rfl, rfl, by decide,
        ⟨12, ⟨[1, 2], by decide, by decide, Or.inl ⟨by decide, by decide⟩⟩, rfl⟩, by decide, by decide⟩
    · exact ⟨("-o", "--outDir", .text), by unfold Spec.valued; simp, Or.inl rfl, by decide, rfl, Or.inl (by decide)⟩
  cwd := by decide
  file := by
    refine ⟨"./cmd.json".toList, ⟨[], _, rainItems.tail, rfl, by decide +kernel⟩, by decide +kernel, ?_⟩
    have ab : ∀ name : String, name.toList ∉ (rainItems.map fun q => q.2.1) → Spec.Absent rainItems name := rain_absent
    constructor
    · exact ⟨[rainItems.head (by decide)], _, rainItems.drop 2, rfl, by decide +kernel⟩
    · exact Or.inl ⟨rainItems.take 3, _, [], rfl, by decide⟩
    · rfl
    · exact Or.inl ⟨⟨rainItems.take 2, _, rainItems.drop 3, rfl, by decide +kernel⟩, by decide⟩
    · exact Or.inr ⟨ab "end" (by decide +kernel), by decide +kernel, by decide +kernel⟩
    · exact Or.inr ⟨ab "dataTime" (by decide +kernel), by decide +kernel, by decide +kernel⟩
    · exact Or.inr ⟨ab "dataDate" (by decide +kernel), by decide +kernel, by decide +kernel⟩
    · exact Or.inl ⟨rfl, rfl⟩
    · exact Or.inr ⟨ab "perturbationNumber" (by decide +kernel), rfl⟩
    · exact ⟨.one mm, rfl, rfl, Or.inr ⟨[], mm, [], true, rfl, by decide, rfl, by simp, rfl, Or.inr (Or.inl rfl)⟩⟩
    · exact Or.inl ⟨Or.inl rfl, rfl⟩
    · exact Or.inr rfl
    · exact in_maps "lat.map".toList (by decide) (by decide)
    · exact in_maps "lon.map".toList (by decide) (by decide)
    · refine ⟨[.lit "/maps/clone.map".toList], fun _ => [], ?_, rfl, ?_, fun v => List.not_mem_nil, rfl⟩
      · intro g hg
        rw [List.mem_singleton] at hg
        subst hg
        exact ⟨by decide, by decide⟩
      · intro v hv
        rw [List.mem_singleton] at hv
        cases hv
    · exact Or.inr ⟨_, _, 6, "accumulation", false, rfl, Or.inl rfl, by decide, rfl, by decide, rfl, Or.inr (Or.inl ⟨rfl, rfl⟩)⟩
    · exact Or.inl ⟨rfl, rfl⟩
    · exact Or.inr ⟨ab "namePrefix" (by decide +kernel), by decide +kernel, by decide +kernel⟩
    · exact Or.inr ⟨ab "fmap" (by decide +kernel), by decide +kernel, by decide +kernel⟩
    · exact Or.inr ⟨ab "ext" (by decide +kernel), by decide +kernel, by decide +kernel⟩
    · exact Or.inr ⟨ab "format" (by decide +kernel), by decide +kernel, by decide +kernel⟩
  run := ⟨rain_absent _ (by decide +kernel), rain_absent _ (by decide +kernel), rain_absent _ (by decide +kernel)⟩
  acceptable := by
    constructor
    · decide +kernel
    · decide +kernel
    · decide +kernel
    · exact Or.inr (Or.inl (by decide +kernel))
    · rintro a b h1 h2
      injection h1 with h1; injection h2 with h2
      omega
    · rintro f g d h; cases h

/-- C143: the run as it ends. -/
example : CommandRun.run (fun _ => none) rainSite (Spec.argv rainItems) =
    match (Spec.runOf rainSite rainReq).pcraster (fun _ => none) with
      | .ok files => .ended (.ok 0) (files.map fun p => (Spec.inFolder rainReq.outDir p.1, p.2))
      | .error e => .ended (Spec.failure e) [] := by
  have h := command_settings (fun _ => none) rainSite rainItems rainReq rain_command rfl
  generalize (Spec.runOf rainSite rainReq).pcraster (fun _ => none) = o at h ⊢
  cases o <;> exact h

/-- status, names and values of what was written. -/
def outcome {k : Nat} (r : Result (k + 1)) : Option (Py Int × List (String × Num)) :=
  match r with
  | .ended s files => some (s, files.map fun p => (String.ofList p.1, p.2 0))
  | _ => none

example : outcome (CommandRun.run (fun _ => none) rainSite (Spec.argv rainItems)) =
    some (.ok 0, [("out/R0000000.001", .fin 12), ("out/R0000000.002", .fin 16)]) := by decide +kernel

/-- C145. -/
example : ∃ files, CommandRun.run (fun _ => none) rainSite (Spec.argv rainItems) = .ended (.ok 0) files ∧
    files.length = 2 := by
  obtain ⟨files, h1, h2, -⟩ := command_accumulation_run (fun _ => none) rainSite rainItems rainReq rain_command rfl
    (by decide) id (-9999) rain rfl (by decide +kernel) 6 false false rfl (by decide) _ rfl 18 rain_last rain_steps 12 18
    rfl rfl _ rfl (fun h => absurd (congrArg List.length h) (by decide +kernel)) 10
    (by decide +kernel) (by decide +kernel) (by decide +kernel) (by decide +kernel) (.inl ⟨.inr rfl, rfl⟩) _ rfl (fun _ => Nat.le_succ 1)
    (by
      rintro t ⟨j, rfl, hj⟩
      have hf : firstEnd 12 6 = 12 := rfl
      rw [hf] at hj ⊢
      have : j = 0 ∨ j = 1 := by omega
      rcases this with rfl | rfl
      · exact ⟨by decide +kernel, .inr (by decide +kernel)⟩
      · exact ⟨by decide +kernel, .inr (by decide +kernel)⟩)
  refine ⟨files, h1, ?_⟩
  have a1 := (h2 1).2 (by decide)
  have a2 := mt (h2 2).1 (by decide)
  omega

/-- C146: the same command with an unknown method. -/
example : outcome (CommandRun.run (fun _ => none)
    { rainSite with commands := fun _ => { rainCmd with mode := some (.str "other".toList) } } (Spec.argv rainItems)) =
    some (.ok 1, []) := by decide +kernel

/-- C146: a line with a stray word. -/
example : Spec.BadLine (Spec.argv rainItems ++ ["x".toList] ++ Spec.argv []) :=
  .stray _ _ _ rain_command.written (by intro q h; cases h) (by decide)
    (by intro u hu; rw [List.mem_singleton] at hu; subst hu; exact Or.inl (by unfold Spec.Loose; decide))

end Demo
end PyG2P
