import Verif.Model.Context
import Verif.Props.ReaderSelect

/-! # Execution parameters: C32–C36 -/

namespace PyG2P
open PyG2P.Reader

/-! ## C32 -/

namespace Spec
/-- The option as typed on the command line. -/
def onCommandLine (c : Cli) : Opt → Option JVal
  | .tstart => c.start.map .int
  | .tend => c.end_.map .int
  | .dataTime => c.dataTime.map .int
  | .dataDate => c.dataDate.map .int
  | .fmap => c.fmap.map .int
  | .ext => c.ext.map .int
  | .format => c.format.map .str
  | .namePrefix => c.namePrefix.map .str
  | .scaleFactor => c.scaleFactor.map .str
  | .offset => c.offset.map .str
  | .validMin => c.validMin.map .str
  | .validMax => c.validMax.map .str
  | .valueFormat => c.valueFormat.map .str
  | .outputStepUnits => c.outputStepUnits.map .str
  | .intertableDir => c.intertableDir.map .str
  | .geopotentialDir => c.geopotentialDir.map .str

/-- The attribute in the JSON file. -/
def inJson (j : Json) : Opt → JVal
  | .tstart => j.tstart
  | .tend => j.tend
  | .dataTime => j.dataTime
  | .dataDate => j.dataDate
  | .fmap => j.fmap
  | .ext => j.ext
  | .format => j.format
  | .namePrefix => j.namePrefix
  | .scaleFactor => j.scaleFactor
  | .offset => j.offset
  | .validMin => j.validMin
  | .validMax => j.validMax
  | .valueFormat => j.valueFormat
  | .outputStepUnits => j.outputStepUnits
  | .intertableDir => j.intertableDir
  | .geopotentialDir => j.geopotentialDir

/-- The documented default. -/
def default (j : Json) (tblDir geoDir : Str) : Opt → JVal
  | .fmap | .ext => .int 1
  | .format => .str "pcraster".toList
  | .namePrefix => .str j.shortName
  | .scaleFactor => .num 1
  | .offset => .num 0
  | .intertableDir => .str tblDir
  | .geopotentialDir => .str geoDir
  | _ => .null

/-- Options read as numbers from the JSON file. -/
def isInt : Opt → Bool
  | .tstart | .tend | .dataTime | .dataDate => true
  | _ => false

/-- Command line, else JSON, else default. -/
def expected (c : Option JVal) (j d : JVal) (asInt : Bool) : Py JVal :=
  match c with
  | some v => .ok v
  | none => if j = .null then .ok d else if asInt then (JVal.toInt j).map .int else .ok j

/-- The values on the command line that the program takes for "not given". -/
def confusing : Opt → Option JVal
  | .fmap | .ext => some (.int 1)
  | .format => some (.str "notset".toList)
  | .namePrefix | .intertableDir | .geopotentialDir => some (.str [])
  | _ => none
end Spec

/-- C32, for JSON values that are absent or true in Python's sense (not `0`, `''`, `false`), and provided
that an option given with the value that stands for "not given" would not be replaced anyway. -/
theorem C32_precedence_partial (c : Cli) (j : Json) (tblDir geoDir : Str) (o : Opt)
    (hj : Spec.inJson j o = .null ∨ (Spec.inJson j o).truthy = true)
    (hc : ∀ v, Spec.onCommandLine c o = some v → Spec.confusing o = some v →
      Spec.expected none (Spec.inJson j o) (Spec.default j tblDir geoDir o) (Spec.isInt o) = .ok v) :
    optValue c j tblDir geoDir o =
      Spec.expected (Spec.onCommandLine c o) (Spec.inJson j o) (Spec.default j tblDir geoDir o) (Spec.isInt o) := by
  have hnull : ∀ v : JVal, v.truthy = true → v ≠ .null := by
    rintro v h rfl; cases h
  have hor : ∀ (v d : JVal), v = .null ∨ v.truthy = true →
      (v.orElse d) = if v = .null then d else v := by
    intro v d h
    unfold JVal.orElse
    rcases h with rfl | h
    · rfl
    · rw [if_pos h, if_neg (hnull v h)]
  have hint : ∀ (cli : Option Int) (v : JVal), v = .null ∨ v.truthy = true →
      intOpt cli v = Spec.expected (cli.map .int) v .null true := by
    intro cli v h
    unfold intOpt Spec.expected
    cases cli with
    | some z => rfl
    | none =>
      dsimp only [Option.map]
      rcases h with rfl | h
      · rfl
      · rw [if_pos h, if_neg (hnull v h)]; rfl
  have hstr : ∀ (cli : Option Str) (v d : JVal), v = .null ∨ v.truthy = true →
      strOpt cli v d = Spec.expected (cli.map .str) v d false := by
    intro cli v d h
    unfold strOpt Spec.expected
    cases cli with
    | some z => rfl
    | none =>
      dsimp only [Option.map]
      rw [hor v d h]
      by_cases hn : v = .null
      · rw [if_pos hn, if_pos hn]
      · rw [if_neg hn, if_neg hn]; rfl
  have hraw : ∀ (cli : Option Str) (v : JVal), rawOpt cli v = Spec.expected (cli.map .str) v .null false := by
    intro cli v
    unfold rawOpt Spec.expected
    cases cli with
    | some z => rfl
    | none =>
      dsimp only [Option.map]
      by_cases hn : v = .null
      · rw [if_pos hn, hn]
      · rw [if_neg hn]; rfl
  have hnone : ∀ (v d : JVal), v = .null ∨ v.truthy = true →
      (Except.ok (v.orElse d) : Py JVal) = Spec.expected none v d false := by
    intro v d h
    unfold Spec.expected
    rw [hor v d h]
    by_cases hn : v = .null
    · simp [hn]
    · simp [hn]
  have hnum : ∀ (cli : Option Int) (v : JVal), (v = .null ∨ v.truthy = true) →
      (∀ x, cli.map .int = some x → (some (JVal.int 1)) = some x →
        Spec.expected none v (.int 1) false = .ok x) →
      numOpt cli v = Spec.expected (cli.map .int) v (.int 1) false := by
    intro cli v h hx
    unfold numOpt
    cases cli with
    | none => exact hnone v (.int 1) h
    | some z =>
      dsimp only [Option.getD]
      by_cases hz : z = 1
      · subst hz
        rw [if_pos rfl, hnone v (.int 1) h, hx (.int 1) rfl rfl]; rfl
      · rw [if_neg hz]; rfl
  have hpre : ∀ (cli : Option Str) (v d : JVal) (f : Option Str → Py JVal), (v = .null ∨ v.truthy = true) →
      (∀ c s, f (some (c :: s)) = .ok (.str (c :: s))) → f none = .ok (v.orElse d) →
      f (some []) = .ok (v.orElse d) →
      (∀ x, cli.map .str = some x → (some (JVal.str [])) = some x →
        Spec.expected none v d false = .ok x) →
      f cli = Spec.expected (cli.map .str) v d false := by
    intro cli v d f h h1 h2 h3 hx
    cases cli with
    | none => rw [h2]; exact hnone v d h
    | some s =>
      cases s with
      | nil => rw [h3, hnone v d h, hx (.str []) rfl rfl]; rfl
      | cons c s => rw [h1]; rfl
  cases o with
  | tstart => exact hint _ _ hj
  | tend => exact hint _ _ hj
  | dataTime => exact hint _ _ hj
  | dataDate => exact hint _ _ hj
  | fmap => exact hnum _ _ hj (fun x a b => hc x a b)
  | ext => exact hnum _ _ hj (fun x a b => hc x a b)
  | format =>
    change formatOpt c.format j.format = _
    unfold formatOpt
    cases hf : c.format with
    | none =>
      change Except.ok _ = Spec.expected (c.format.map .str) j.format (.str "pcraster".toList) false
      rw [hf]; exact hnone _ _ hj
    | some s =>
      change Except.ok _ = Spec.expected (c.format.map .str) j.format (.str "pcraster".toList) false
      dsimp only [Option.getD]
      by_cases hs : s = "notset".toList
      · rw [if_pos hs, hnone j.format _ hj]
        have := hc (.str s) (by change c.format.map JVal.str = _; rw [hf]; rfl) (by rw [hs]; rfl)
        rw [hf]
        exact this
      · rw [if_neg hs, hf]; rfl
  | namePrefix =>
    exact hpre c.namePrefix j.namePrefix (.str j.shortName) (fun x => prefixOpt x j.namePrefix j.shortName) hj
      (fun _ _ => rfl) rfl rfl (fun x a b => hc x a b)
  | scaleFactor => exact hstr _ _ _ hj
  | offset => exact hstr _ _ _ hj
  | validMin => exact hraw _ _
  | validMax => exact hraw _ _
  | valueFormat => exact hraw _ _
  | outputStepUnits => exact hraw _ _
  | intertableDir =>
    exact hpre c.intertableDir j.intertableDir (.str tblDir) (fun x => dirOpt x j.intertableDir tblDir) hj
      (fun _ _ => rfl) rfl rfl (fun x a b => hc x a b)
  | geopotentialDir =>
    exact hpre c.geopotentialDir j.geopotentialDir (.str geoDir) (fun x => dirOpt x j.geopotentialDir geoDir) hj
      (fun _ _ => rfl) rfl rfl (fun x a b => hc x a b)

/-- C32: in particular, whatever the JSON file says, an option given on the command line is used, except
for the values that stand for "not given". -/
theorem C32_command_line_wins (c : Cli) (j : Json) (tblDir geoDir : Str) (o : Opt) (v : JVal)
    (h : Spec.onCommandLine c o = some v) (hv : Spec.confusing o ≠ some v) :
    optValue c j tblDir geoDir o = .ok v := by
  have hs : ∀ {α : Type} (x : Option α) (f : α → JVal), x.map f = some v → ∃ a, x = some a ∧ f a = v := by
    intro α x f hx
    cases x with
    | none => cases hx
    | some a => exact ⟨a, rfl, Option.some.inj hx⟩
  cases o with
  | tstart => obtain ⟨a, ha, rfl⟩ := hs _ _ h; simp only [optValue, ha]; rfl
  | tend => obtain ⟨a, ha, rfl⟩ := hs _ _ h; simp only [optValue, ha]; rfl
  | dataTime => obtain ⟨a, ha, rfl⟩ := hs _ _ h; simp only [optValue, ha]; rfl
  | dataDate => obtain ⟨a, ha, rfl⟩ := hs _ _ h; simp only [optValue, ha]; rfl
  | fmap =>
    obtain ⟨a, ha, rfl⟩ := hs _ _ h
    have : a ≠ 1 := fun e => hv (by rw [e]; rfl)
    simp only [optValue, ha, numOpt, Option.getD, if_neg this]
  | ext =>
    obtain ⟨a, ha, rfl⟩ := hs _ _ h
    have : a ≠ 1 := fun e => hv (by rw [e]; rfl)
    simp only [optValue, ha, numOpt, Option.getD, if_neg this]
  | format =>
    obtain ⟨a, ha, rfl⟩ := hs _ _ h
    have : a ≠ "notset".toList := fun e => hv (by rw [e]; rfl)
    simp only [optValue, ha, formatOpt, Option.getD, if_neg this]
  | namePrefix =>
    obtain ⟨a, ha, rfl⟩ := hs _ _ h
    cases a with
    | nil => exact absurd rfl hv
    | cons x s => simp only [optValue, ha]; rfl
  | scaleFactor => obtain ⟨a, ha, rfl⟩ := hs _ _ h; simp only [optValue, ha]; rfl
  | offset => obtain ⟨a, ha, rfl⟩ := hs _ _ h; simp only [optValue, ha]; rfl
  | validMin => obtain ⟨a, ha, rfl⟩ := hs _ _ h; simp only [optValue, ha]; rfl
  | validMax => obtain ⟨a, ha, rfl⟩ := hs _ _ h; simp only [optValue, ha]; rfl
  | valueFormat => obtain ⟨a, ha, rfl⟩ := hs _ _ h; simp only [optValue, ha]; rfl
  | outputStepUnits => obtain ⟨a, ha, rfl⟩ := hs _ _ h; simp only [optValue, ha]; rfl
  | intertableDir =>
    obtain ⟨a, ha, rfl⟩ := hs _ _ h
    cases a with
    | nil => exact absurd rfl hv
    | cons x s => simp only [optValue, ha]; rfl
  | geopotentialDir =>
    obtain ⟨a, ha, rfl⟩ := hs _ _ h
    cases a with
    | nil => exact absurd rfl hv
    | cons x s => simp only [optValue, ha]; rfl

def exCli : Cli := ⟨some 6, none, none, none, some 1, none, none, none, none, some "2".toList, none, none,
  none, none, none, none⟩
def exJson : Json := ⟨"2t".toList, .str "12".toList, .str "48".toList, .int 0, .null, .int 5, .null, .null, .null,
  .num (1/10), .null, .null, .null, .null, .null, .null, .null⟩

example : optValue exCli exJson [] [] .tstart = .ok (.int 6) ∧ optValue exCli exJson [] [] .tend = .ok (.int 48) ∧
    optValue exCli exJson [] [] .scaleFactor = .ok (.num (1/10)) ∧
    optValue exCli exJson [] [] .offset = .ok (.str "2".toList) ∧
    optValue exCli exJson [] [] .format = .ok (.str "pcraster".toList) := by decide +kernel

/-- C32 is violated by `-f 1` (also `-x 1`, `-F notset`, `-n ''`): the JSON value is used. -/
theorem C32_violated : Spec.onCommandLine exCli .fmap = some (.int 1) ∧
    optValue exCli exJson [] [] .fmap = .ok (.int 5) := by decide +kernel

/-- C32 is violated by a JSON number 0: `"@dataTime": 0` selects every time of day. -/
theorem C32_json_zero : Spec.inJson exJson .dataTime = .int 0 ∧
    optValue exCli exJson [] [] .dataTime = .ok .null := by decide +kernel

/-! ## C33 -/

namespace Spec
/-- The documented checks, in order, with their error codes. -/
def violations (fs : Fs) (p : Params) : List (Prop × Nat) :=
  [ (p.inputFile = none ∨ p.inputFile = some [], 1001),
    (∀ f, p.inputFile = some f → fs.isFile f = false, 1000),
    (fs.isFile p.lonMap = false ∨ fs.isFile p.latMap = false, 1300),
    (fs.isFile p.clone = false, 1310),
    (p.mode ∉ allowedMethods, 8400),
    (∃ s, p.level = .str s ∧ s ≠ [] ∧ ∃ c ∈ s, ¬ ('0' ≤ c ∧ c ≤ '9'), 1400),
    (∃ a b, p.tstart = some a ∧ p.tend = some b ∧ b < a, 1500),
    (p.doCorrection = true ∧ (p.gemFormula = none ∨ p.gemFormula = some [] ∨ p.demMap = none ∨
      p.demMap = some [] ∨ p.formula = none ∨ p.formula = some []), 4100),
    (p.doCorrection = true ∧ ∀ f, p.demMap = some f → fs.isFile f = false, 4300) ]

/-- `code` belongs to the first violated check. -/
def FirstViolated (l : List (Prop × Nat)) (code : Nat) : Prop :=
  ∃ a q b, l = a ++ (q, code) :: b ∧ q ∧ ∀ x ∈ a, ¬ x.1
end Spec

theorem firstViolated_cons {q : Prop} {n code : Nat} {l : List (Prop × Nat)} :
    Spec.FirstViolated ((q, n) :: l) code ↔ (q ∧ code = n) ∨ (¬ q ∧ Spec.FirstViolated l code) := by
  constructor
  · rintro ⟨a, q', b, h1, h2, h3⟩
    cases a with
    | nil =>
      simp only [List.nil_append, List.cons.injEq, Prod.mk.injEq] at h1
      obtain ⟨⟨rfl, rfl⟩, -⟩ := h1
      exact Or.inl ⟨h2, rfl⟩
    | cons x a =>
      simp only [List.cons_append, List.cons.injEq] at h1
      refine Or.inr ⟨?_, a, q', b, h1.2, h2, fun y hy => h3 y (by simp [hy])⟩
      have := h3 x (by simp)
      rw [← h1.1] at this; exact this
  · rintro (⟨h1, rfl⟩ | ⟨h1, a, q', b, rfl, h2, h3⟩)
    · exact ⟨[], q, l, rfl, h1, by simp⟩
    · refine ⟨(q, n) :: a, q', b, rfl, h2, ?_⟩
      intro x hx
      rcases List.mem_cons.1 hx with rfl | hx
      · exact h1
      · exact h3 x hx

theorem firstViolated_nil {code : Nat} : ¬ Spec.FirstViolated [] code := by
  rintro ⟨a, q, b, h, -⟩; cases a <;> cases h

theorem given_iff (s : Option Str) : given s = false ↔ s = none ∨ s = some [] := by
  unfold given; cases s <;> simp

theorem toInt_of_isDigit (s : Str) (h : Str.isDigit s = true) : ∃ z, Str.toInt s = .ok z := by
  unfold Str.toInt
  split
  · rename_i r
    simp [Str.isDigit] at h
    exact absurd h.1 (by decide)
  · rename_i r
    simp [Str.isDigit] at h
    exact absurd h.1 (by decide)
  · rw [if_pos h]; exact ⟨_, rfl⟩

/-- C33: if the output folder exists or can be created, level and unit time are absent or strings that are
not malformed in another way, the DEM exists when correcting and neither end of the window is 0 when they
are out of order: the run is accepted iff no check is violated, and otherwise refused with the code of the
first violated check. -/
theorem C33_checks_partial (fs : Fs) (p : Params)
    (hdir : ∃ d, outDirOf fs p.outDir = .ok d)
    (hlev : p.level = .null ∨ ∃ s, p.level = .str s)
    (hunit : ∃ u, unitTimeOf p.unitTime = .ok u)
    (hzero : ∀ a b, p.tstart = some a → p.tend = some b → b < a → a ≠ 0 ∧ b ≠ 0)
    (hdem : p.doCorrection = true → ∀ f, p.demMap = some f → fs.isFile f = true) :
    (∀ code, checkParams fs p = .error (.app code) ↔ Spec.FirstViolated (Spec.violations fs p) code) ∧
    ((∃ r, checkParams fs p = .ok r) ↔ ∀ q ∈ Spec.violations fs p, ¬ q.1) := by
  have main : (∃ r, checkParams fs p = .ok r ∧ ∀ q ∈ Spec.violations fs p, ¬ q.1) ∨
      ∃ code, checkParams fs p = .error (.app code) ∧ Spec.FirstViolated (Spec.violations fs p) code := by
    obtain ⟨d, hd⟩ := hdir
    obtain ⟨u, hu⟩ := hunit
    unfold Spec.violations
    by_cases h1 : given p.inputFile = false
    · right
      refine ⟨1001, ?_, firstViolated_cons.2 (Or.inl ⟨(given_iff _).1 h1, rfl⟩)⟩
      unfold checkParams; rw [if_pos h1]; rfl
    have h1' := fun h => h1 ((given_iff p.inputFile).2 h)
    obtain ⟨f, hf⟩ : ∃ f, p.inputFile = some f := by
      cases hp : p.inputFile with
      | none => exact absurd (Or.inl hp) h1'
      | some f => exact ⟨f, rfl⟩
    have hgetD : p.inputFile.getD [] = f := by rw [hf]; rfl
    by_cases h2 : fs.isFile f = false
    · right
      refine ⟨1000, ?_, firstViolated_cons.2 (Or.inr ⟨h1', firstViolated_cons.2 (Or.inl ⟨?_, rfl⟩)⟩)⟩
      · unfold checkParams; rw [if_neg h1, hgetD, if_pos h2]; rfl
      · intro f' hf'; rw [hf] at hf'; cases hf'; exact h2
    have h2' : ¬ ∀ f, p.inputFile = some f → fs.isFile f = false := fun h => h2 (h f hf)
    by_cases h3 : fs.isFile p.lonMap = false ∨ fs.isFile p.latMap = false
    · right
      refine ⟨1300, ?_, firstViolated_cons.2 (Or.inr ⟨h1', firstViolated_cons.2 (Or.inr ⟨h2',
        firstViolated_cons.2 (Or.inl ⟨h3, rfl⟩)⟩)⟩)⟩
      unfold checkParams; rw [if_neg h1, hgetD, if_neg h2, if_pos h3]; rfl
    by_cases h4 : fs.isFile p.clone = false
    · right
      refine ⟨1310, ?_, firstViolated_cons.2 (Or.inr ⟨h1', firstViolated_cons.2 (Or.inr ⟨h2',
        firstViolated_cons.2 (Or.inr ⟨h3, firstViolated_cons.2 (Or.inl ⟨h4, rfl⟩)⟩)⟩)⟩)⟩
      unfold checkParams; rw [if_neg h1, hgetD, if_neg h2, if_neg h3, if_pos h4]; rfl
    by_cases h5 : p.mode ∉ allowedMethods
    · right
      refine ⟨8400, ?_, firstViolated_cons.2 (Or.inr ⟨h1', firstViolated_cons.2 (Or.inr ⟨h2',
        firstViolated_cons.2 (Or.inr ⟨h3, firstViolated_cons.2 (Or.inr ⟨h4,
        firstViolated_cons.2 (Or.inl ⟨h5, rfl⟩)⟩)⟩)⟩)⟩)⟩
      unfold checkParams; rw [if_neg h1, hgetD, if_neg h2, if_neg h3, if_neg h4, if_pos h5]; rfl
    have hchk : checkParams fs p = (levelOf p.level >>= fun level =>
        if givenInt p.tstart ∧ givenInt p.tend ∧ ¬ p.tstart.getD 0 ≤ p.tend.getD 0 then .error (.app 1500)
        else if p.doCorrection ∧ ¬ (given p.gemFormula ∧ given p.demMap ∧ given p.formula) then .error (.app 4100)
        else if p.doCorrection ∧ fs.isFile (p.demMap.getD []) = false then .error (.app 4200)
        else .ok ⟨d, level, u⟩) := by
      unfold checkParams
      rw [if_neg h1, hgetD, if_neg h2, if_neg h3, if_neg h4, if_neg h5, hd, hu]
      cases levelOf p.level with
      | error e => rfl
      | ok l =>
        by_cases a1 : givenInt p.tstart = true ∧ givenInt p.tend = true ∧ ¬ p.tstart.getD 0 ≤ p.tend.getD 0
        · simp only [bind, Except.bind, pure, Except.pure, if_pos a1]; rfl
        · simp only [bind, Except.bind, pure, Except.pure, if_neg a1]
          by_cases a2 : p.doCorrection = true ∧ ¬ (given p.gemFormula = true ∧ given p.demMap = true ∧ given p.formula = true)
          · simp only [if_pos a2]; rfl
          · simp only [if_neg a2]
            by_cases a3 : p.doCorrection = true ∧ fs.isFile (p.demMap.getD []) = false
            · simp only [if_pos a3]; rfl
            · simp only [if_neg a3]
    rw [hchk]
    -- the level
    have hlevel : (levelOf p.level = .error (.app 1400) ∧
          ∃ s, p.level = .str s ∧ s ≠ [] ∧ ∃ c ∈ s, ¬ ('0' ≤ c ∧ c ≤ '9')) ∨
        ((∃ l, levelOf p.level = .ok l) ∧
          ¬ ∃ s, p.level = .str s ∧ s ≠ [] ∧ ∃ c ∈ s, ¬ ('0' ≤ c ∧ c ≤ '9')) := by
      rcases hlev with hl | ⟨s, hl⟩
      · rw [hl]
        refine Or.inr ⟨⟨none, rfl⟩, ?_⟩
        rintro ⟨s, hs, -⟩; cases hs
      · rw [hl]
        by_cases hs : s = []
        · subst hs
          refine Or.inr ⟨⟨none, rfl⟩, ?_⟩
          rintro ⟨s, he, hne, -⟩; cases he; exact hne rfl
        · have ht : (JVal.str s).truthy = true := by simp [JVal.truthy, hs]
          unfold levelOf
          rw [if_pos ht]
          dsimp only
          by_cases hd : Str.isDigit s = true
          · rw [if_pos hd]
            obtain ⟨z, hz⟩ := toInt_of_isDigit s hd
            refine Or.inr ⟨⟨some z, by rw [hz]; rfl⟩, ?_⟩
            rintro ⟨s', he, -, c, hc, hn⟩
            cases he
            unfold Str.isDigit at hd
            rw [Bool.and_eq_true, List.all_eq_true] at hd
            exact hn (by simpa [Str.isDigitChar] using hd.2 c hc)
          · rw [if_neg hd]
            refine Or.inl ⟨rfl, s, rfl, hs, ?_⟩
            by_contra hno
            apply hd
            unfold Str.isDigit
            rw [Bool.and_eq_true, List.all_eq_true]
            refine ⟨by simp [hs], fun c hc => ?_⟩
            by_contra hcc
            exact hno ⟨c, hc, fun hh => hcc (by simpa [Str.isDigitChar] using hh)⟩
    rcases hlevel with ⟨hl, h6⟩ | ⟨⟨l, hl⟩, h6⟩
    · right
      rw [hl]
      exact ⟨1400, rfl, firstViolated_cons.2 (Or.inr ⟨h1', firstViolated_cons.2 (Or.inr ⟨h2',
        firstViolated_cons.2 (Or.inr ⟨h3, firstViolated_cons.2 (Or.inr ⟨h4,
        firstViolated_cons.2 (Or.inr ⟨h5, firstViolated_cons.2 (Or.inl ⟨h6, rfl⟩)⟩)⟩)⟩)⟩)⟩)⟩
    rw [hl]
    have hwin : (givenInt p.tstart = true ∧ givenInt p.tend = true ∧ ¬ p.tstart.getD 0 ≤ p.tend.getD 0) ↔
        ∃ a b, p.tstart = some a ∧ p.tend = some b ∧ b < a := by
      constructor
      · rintro ⟨a1, a2, a3⟩
        unfold givenInt at a1 a2
        cases ht : p.tstart with
        | none => simp [ht] at a1
        | some a =>
          cases he : p.tend with
          | none => simp [he] at a2
          | some b =>
            rw [ht, he] at a3
            exact ⟨a, b, rfl, rfl, not_le.1 a3⟩
      · rintro ⟨a, b, ha, hb, hlt⟩
        obtain ⟨na, nb⟩ := hzero a b ha hb hlt
        rw [ha, hb]
        simp [givenInt, na, nb, hlt]
    have hcor : ¬ (given p.gemFormula = true ∧ given p.demMap = true ∧ given p.formula = true) ↔
        (p.gemFormula = none ∨ p.gemFormula = some [] ∨ p.demMap = none ∨
          p.demMap = some [] ∨ p.formula = none ∨ p.formula = some []) := by
      unfold given
      cases p.gemFormula <;> cases p.demMap <;> cases p.formula <;> simp <;> tauto
    by_cases h7 : ∃ a b, p.tstart = some a ∧ p.tend = some b ∧ b < a
    · right
      refine ⟨1500, ?_, firstViolated_cons.2 (Or.inr ⟨h1', firstViolated_cons.2 (Or.inr ⟨h2',
        firstViolated_cons.2 (Or.inr ⟨h3, firstViolated_cons.2 (Or.inr ⟨h4,
        firstViolated_cons.2 (Or.inr ⟨h5, firstViolated_cons.2 (Or.inr ⟨h6,
        firstViolated_cons.2 (Or.inl ⟨h7, rfl⟩)⟩)⟩)⟩)⟩)⟩)⟩)⟩
      change (if _ then _ else _) = _
      rw [if_pos (hwin.2 h7)]
    by_cases h8 : p.doCorrection = true ∧ (p.gemFormula = none ∨ p.gemFormula = some [] ∨ p.demMap = none ∨
      p.demMap = some [] ∨ p.formula = none ∨ p.formula = some [])
    · right
      refine ⟨4100, ?_, firstViolated_cons.2 (Or.inr ⟨h1', firstViolated_cons.2 (Or.inr ⟨h2',
        firstViolated_cons.2 (Or.inr ⟨h3, firstViolated_cons.2 (Or.inr ⟨h4,
        firstViolated_cons.2 (Or.inr ⟨h5, firstViolated_cons.2 (Or.inr ⟨h6,
        firstViolated_cons.2 (Or.inr ⟨h7, firstViolated_cons.2 (Or.inl ⟨h8, rfl⟩)⟩)⟩)⟩)⟩)⟩)⟩)⟩)⟩
      change (if _ then _ else _) = _
      rw [if_neg (fun h => h7 (hwin.1 h)), if_pos ⟨h8.1, hcor.2 h8.2⟩]
    left
    have hdem' : ∀ f, p.doCorrection = true → p.demMap = some f → fs.isFile (p.demMap.getD []) = true := by
      intro f hc hf; rw [hf]; exact hdem hc f hf
    have hdm : p.doCorrection = true → ∃ f, p.demMap = some f := by
      intro hc
      cases hm : p.demMap with
      | none => exact absurd ⟨hc, Or.inr (Or.inr (Or.inl hm))⟩ h8
      | some f => exact ⟨f, rfl⟩
    have h9 : ¬ (p.doCorrection = true ∧ fs.isFile (p.demMap.getD []) = false) := by
      rintro ⟨hc, hb⟩
      obtain ⟨f, hf⟩ := hdm hc
      rw [hdem' f hc hf] at hb; cases hb
    refine ⟨⟨d, l, u⟩, ?_, ?_⟩
    · change (if _ then _ else _) = _
      rw [if_neg (fun h => h7 (hwin.1 h)), if_neg (fun h => h8 ⟨h.1, hcor.1 h.2⟩), if_neg h9]
    · intro q hq
      simp only [List.mem_cons, List.not_mem_nil, or_false] at hq
      rcases hq with rfl | rfl | rfl | rfl | rfl | rfl | rfl | rfl | rfl
      · exact h1'
      · exact h2'
      · exact h3
      · exact h4
      · exact h5
      · exact h6
      · exact h7
      · exact h8
      · rintro ⟨hc, hall⟩
        obtain ⟨f, hf⟩ := hdm hc
        have := hall f hf
        rw [hdem hc f hf] at this; cases this
  have uniq : ∀ (l : List (Prop × Nat)) a b, Spec.FirstViolated l a → Spec.FirstViolated l b → a = b := by
    intro l
    induction l with
    | nil => intro a b h; exact absurd h firstViolated_nil
    | cons x l ih =>
      obtain ⟨q, n⟩ := x
      intro a b h1 h2
      rcases firstViolated_cons.1 h1 with ⟨h, rfl⟩ | ⟨h, h1⟩
      · rcases firstViolated_cons.1 h2 with ⟨-, rfl⟩ | ⟨h', -⟩
        · rfl
        · exact absurd h h'
      · rcases firstViolated_cons.1 h2 with ⟨h', -⟩ | ⟨-, h2⟩
        · exact absurd h' h
        · exact ih a b h1 h2
  have excl : ∀ (l : List (Prop × Nat)) a, Spec.FirstViolated l a → ¬ ∀ q ∈ l, ¬ q.1 := by
    rintro l a ⟨x, q, b, rfl, h1, -⟩ h
    exact h (q, a) (by simp) h1
  rcases main with ⟨r, hr, hall⟩ | ⟨code, hr, hv⟩
  · rw [hr]
    refine ⟨fun c => ⟨(fun h => by cases h), fun h => absurd hall (excl _ _ h)⟩, ⟨fun _ => hall, fun _ => ⟨r, rfl⟩⟩⟩
  · rw [hr]
    refine ⟨fun c => ⟨fun h => ?_, fun h => ?_⟩, ⟨?_, fun h => absurd h (excl _ _ hv)⟩⟩
    · cases h; exact hv
    · rw [uniq _ _ _ h hv]
    · rintro ⟨r, h⟩; cases h

def exFs : Fs := ⟨fun f => decide (f ≠ "nofile".toList), fun _ => true, fun _ => true⟩
def exParams : Params := ⟨some "in.grb".toList, "lon.map".toList, "lat.map".toList, "clone.map".toList,
  "adw".toList, "out".toList, .str "10".toList, .null, some 24, some 12, false, none, none, none⟩

example : (match checkParams exFs exParams with | .error e => some e | .ok _ => none) = some (.app 1500) := by
  decide +kernel
example : (match checkParams exFs { exParams with tstart := some 6 } with
    | .ok r => some (r.level, r.outDir) | .error _ => none) = some (some 10, "out/".toList) := by
  decide +kernel

/-- C33 is violated by `tend = 0`: a window from 24 to 0 is accepted. -/
theorem C33_zero_end_accepted : ∃ r, checkParams exFs { exParams with tend := some 0 } = .ok r := ⟨_, rfl⟩

/-- C33 is violated by a missing DEM: the code is that of a missing geopotential, not 4300. -/
theorem C33_dem_code :
    (match checkParams exFs { exParams with
      tstart := none
      doCorrection := true
      gemFormula := some "g".toList
      formula := some "f".toList
      demMap := some "nofile".toList } with | .error e => some e | .ok _ => none) = some (.app 4200) := by
  decide +kernel

/-- C33 is violated by a level given as a JSON number: `AttributeError` instead of acceptance. -/
theorem C33_numeric_level :
    (match checkParams exFs { exParams with
      tstart := none
      level := .int 10 } with | .error e => some e | .ok _ => none) = some .attributeError := by
  decide +kernel

/-! ## C34 -/

theorem get?_endStep {α : Type} (m : GMsg α) : m.get? "endStep".toList = some (.int m.endStep) := by
  unfold GMsg.get?; rw [if_neg (by decide), if_neg (by decide), if_pos rfl]
theorem get?_level {α : Type} (m : GMsg α) : m.get? "level".toList = some (.int m.level) := by
  unfold GMsg.get?
  rw [if_neg (by decide), if_neg (by decide), if_neg (by decide), if_neg (by decide), if_pos rfl]
theorem get?_dataTime {α : Type} (m : GMsg α) :
    m.get? "dataTime".toList = Dict.get? m.other "dataTime".toList := by
  unfold GMsg.get?
  rw [if_neg (by decide), if_neg (by decide), if_neg (by decide), if_neg (by decide), if_neg (by decide),
    if_neg (by decide)]
theorem get?_dataDate {α : Type} (m : GMsg α) :
    m.get? "dataDate".toList = Dict.get? m.other "dataDate".toList := by
  unfold GMsg.get?
  rw [if_neg (by decide), if_neg (by decide), if_neg (by decide), if_neg (by decide), if_neg (by decide),
    if_neg (by decide)]

theorem matches_append {α : Type} (m : GMsg α) (a b : Kwargs) :
    Spec.Matches m (a ++ b) ↔ Spec.Matches m a ∧ Spec.Matches m b := by
  constructor
  · intro h
    exact ⟨fun k c hm => h k c (List.mem_append_left _ hm), fun k c hm => h k c (List.mem_append_right _ hm)⟩
  · rintro ⟨h1, h2⟩ k c hm
    rcases List.mem_append.1 hm with hm | hm
    · exact h1 k c hm
    · exact h2 k c hm

theorem matches_optCond {α : Type} (m : GMsg α) (k : String) (o : Option Int) :
    Spec.Matches m (optCond k o) ↔ ∀ z, o = some z → m.get? k.toList = some (.int z) := by
  cases o with
  | none => simp [optCond, Spec.Matches]
  | some z =>
    constructor
    · intro h z' hz
      cases hz
      obtain ⟨x, h1, h2⟩ := h _ _ (List.mem_singleton.2 rfl)
      have : x = .int z := by simpa [Cond.holds] using h2
      rw [← this]; exact h1
    · intro h k' c hm
      cases List.mem_singleton.1 hm
      exact ⟨_, h z rfl, by simp [Cond.holds]⟩

theorem matches_single {α : Type} (m : GMsg α) (k : Str) (c : Cond) (x : KV) (hx : m.get? k = some x) :
    Spec.Matches m [(k, c)] ↔ c.holds x = true := by
  constructor
  · intro h
    obtain ⟨y, h1, h2⟩ := h _ _ (List.mem_singleton.2 rfl)
    rw [hx] at h1; cases h1; exact h2
  · intro h k' c' hm
    cases List.mem_singleton.1 hm
    exact ⟨x, hx, h⟩

/-- C34: the messages asked for are those of the parameter under one of its three names, in the window,
with the level, time, date and member given. -/
theorem C34_window {α : Type} (p : SelPar) (start end_ : Int) (m : GMsg α) :
    Spec.Matches m (selectCmd p start end_) ↔
      (m.shortName = p.shortName ∨ m.shortName = p.shortName.map Char.toUpper ∨
        m.shortName = p.shortName ++ "var".toList) ∧
      (start ≠ end_ → start ≤ m.startStep ∧ m.endStep ≤ end_) ∧
      (start = end_ → m.startStep = start ∧ m.endStep = end_) ∧
      (∀ z, p.level = some z → m.level = z) ∧
      (∀ z, p.dataTime = some z → Dict.get? m.other "dataTime".toList = some (.int z)) ∧
      (∀ z, p.dataDate = some z → Dict.get? m.other "dataDate".toList = some (.int z)) ∧
      (∀ z, p.perturbation = some z → Dict.get? m.other "perturbationNumber".toList = some (.int z)) := by
  unfold selectCmd
  rw [matches_append, matches_append, matches_append, matches_append, matches_append, matches_optCond,
    matches_optCond, matches_optCond, matches_optCond, matches_single m _ _ _ (get?_shortName m),
    get?_level, get?_dataTime, get?_dataDate, get?_pert]
  have hname : (Cond.mem [.str p.shortName, .str (Str.upper p.shortName),
      .str (p.shortName ++ "var".toList)]).holds (.str m.shortName) = true ↔
      (m.shortName = p.shortName ∨ m.shortName = p.shortName.map Char.toUpper ∨
        m.shortName = p.shortName ++ "var".toList) := by
    unfold Cond.holds Str.upper
    rw [decide_eq_true_iff, List.mem_cons, List.mem_cons, List.mem_cons, KV.str.injEq, KV.str.injEq, KV.str.injEq]
    constructor
    · rintro (h | h | h | h)
      · exact .inl h
      · exact .inr (.inl h)
      · exact .inr (.inr h)
      · cases h
    · rintro (h | h | h)
      · exact .inl h
      · exact .inr (.inl h)
      · exact .inr (.inr (.inl h))
  rw [hname]
  have hlev : (∀ z, p.level = some z → some (KV.int m.level) = some (.int z)) ↔
      ∀ z, p.level = some z → m.level = z := by
    constructor
    · intro h z hz; have := h z hz; cases this; rfl
    · intro h z hz; rw [h z hz]
  rw [hlev]
  have hwin : Spec.Matches m (if start = end_ then
        [("endStep".toList, Cond.eq (.int end_)), ("startStep".toList, .eq (.int start))]
      else [("endStep".toList, .pred (atMost end_)), ("startStep".toList, .pred (atLeast start))]) ↔
      (start ≠ end_ → start ≤ m.startStep ∧ m.endStep ≤ end_) ∧
      (start = end_ → m.startStep = start ∧ m.endStep = end_) := by
    by_cases h : start = end_
    · rw [if_pos h]
      rw [show ([("endStep".toList, Cond.eq (.int end_)), ("startStep".toList, .eq (.int start))] : Kwargs) =
        [("endStep".toList, Cond.eq (.int end_))] ++ [("startStep".toList, .eq (.int start))] from rfl,
        matches_append, matches_single m _ _ _ (get?_endStep m), matches_single m _ _ _ (get?_startStep m)]
      unfold Cond.holds
      rw [decide_eq_true_iff, decide_eq_true_iff, KV.int.injEq, KV.int.injEq]
      tauto
    · rw [if_neg h]
      rw [show ([("endStep".toList, Cond.pred (atMost end_)), ("startStep".toList, .pred (atLeast start))] : Kwargs) =
        [("endStep".toList, Cond.pred (atMost end_))] ++ [("startStep".toList, .pred (atLeast start))] from rfl,
        matches_append, matches_single m _ _ _ (get?_endStep m), matches_single m _ _ _ (get?_startStep m)]
      unfold Cond.holds atMost atLeast
      dsimp only
      rw [decide_eq_true_iff, decide_eq_true_iff]
      tauto
  rw [hwin]
  tauto

example : (selectCmd ⟨"2t".toList, some 10, none, none, none⟩ 6 24).length = 4 := rfl

/-! ## C35 -/

/-- C35: with aggregation (and a file whose input step is not 0), the window asked for is
`max(0, start − step) .. end`, where `start` is the given `tstart` or 0 and `end` the given `tend` or the
end of the file; so every message of the parameter that lies in it is asked for. `tend` must not be 0. -/
theorem C35_window_partial (tstart tend : Option Int) (a inputStep infoEnd : Int) (hin : inputStep ≠ 0)
    (htend : tend ≠ some 0) :
    readerWindow tstart tend (some a) inputStep infoEnd =
      (max 0 (tstart.getD 0 - a), tend.getD infoEnd) := by
  unfold readerWindow Aggregator.init Aggregator.realStartEnd
  have h1 : (if givenInt tstart = true then tstart.getD 0 else 0) = tstart.getD 0 := by
    cases tstart with
    | none => rfl
    | some z =>
      by_cases hz : z = 0
      · subst hz; rfl
      · have : givenInt (some z) = true := by simp [givenInt, hz]
        rw [if_pos this]
  have h2 : (if givenInt tend = true then tend.getD 0 else infoEnd) = tend.getD infoEnd := by
    cases tend with
    | none => rfl
    | some z =>
      have : givenInt (some z) = true := by
        have hz : z ≠ 0 := fun h => htend (by rw [h])
        simp [givenInt, hz]
      rw [if_pos this]; rfl
  dsimp only
  rw [h1, h2, if_pos hin]
  congr 1
  split_ifs with h
  · rw [max_eq_left (by omega)]
  · rw [max_eq_right (by omega)]

/-- C35: every message of the parameter inside the aggregation window is asked for. -/
theorem C35_needed_messages_partial {α : Type} (p : SelPar) (tstart tend : Option Int) (a inputStep infoEnd : Int)
    (hin : inputStep ≠ 0) (htend : tend ≠ some 0) (m : GMsg α)
    (hname : m.shortName = p.shortName) (hlev : ∀ z, p.level = some z → m.level = z)
    (hp : p.dataTime = none ∧ p.dataDate = none ∧ p.perturbation = none)
    (h0 : 0 ≤ m.startStep) (h1 : tstart.getD 0 - a ≤ m.startStep) (h2 : m.endStep ≤ tend.getD infoEnd)
    (h3 : m.startStep < m.endStep) :
    Spec.Matches m (selectCmd p (readerWindow tstart tend (some a) inputStep infoEnd).1
      (readerWindow tstart tend (some a) inputStep infoEnd).2) := by
  rw [C35_window_partial tstart tend a inputStep infoEnd hin htend, C34_window]
  obtain ⟨p1, p2, p3⟩ := hp
  refine ⟨Or.inl hname, fun _ => ⟨max_le h0 h1, h2⟩, fun he => ?_, hlev, ?_, ?_, ?_⟩
  · exfalso
    have : max 0 (tstart.getD 0 - a) ≤ m.startStep := max_le h0 h1
    dsimp only at he
    omega
  · intro z hz; rw [p1] at hz; cases hz
  · intro z hz; rw [p2] at hz; cases hz
  · intro z hz; rw [p3] at hz; cases hz

example : readerWindow (some 24) (some 72) (some 24) 6 240 = (0, 72) := by decide +kernel

/-- C35 is violated by `-e 0`: the end of the file is used. -/
theorem C35_tend_zero : readerWindow none (some 0) (some 24) 6 240 = (0, 240) := by decide +kernel

/-- C35 is violated when the input step of the file is 0: the window starts at `tstart`, so what is needed
for the first aggregation interval is not asked for. -/
theorem C35_zero_input_step (ts te a infoEnd : Int) (h1 : ts ≠ 0) (h2 : te ≠ 0) :
    readerWindow (some ts) (some te) (some a) 0 infoEnd = (ts, te) := by
  simp [readerWindow, givenInt, h1, h2, Aggregator.init, Aggregator.realStartEnd]

/-! ## C36 -/

/-- C36: aggregation is done iff the JSON file has an aggregation with both a step and a type. -/
theorem C36_aggregation (a : Option JAggr) :
    doAggregation a = true ↔ ∃ x, a = some x ∧ x.step.truthy = true ∧ x.type.truthy = true := by
  cases a with
  | none => simp [doAggregation]
  | some x => simp [doAggregation]

/-- The words for "no". -/
def Spec.noWords : List Str := ["false", "f", "no", "0", "off"].map String.toList

theorem toLower_idem (c : Char) : c.toLower.toLower = c.toLower := by
  simp only [Char.toLower]
  split
  · rename_i h
    rw [dif_neg]
    obtain ⟨a, b⟩ := h
    have a' : 65 ≤ c.val.toNat := a
    have b' : c.val.toNat ≤ 90 := b
    rintro ⟨-, hb⟩
    have hb' : (c.val + 32).toNat ≤ 90 := hb
    rw [UInt32.toNat_add] at hb'
    have : (32 : UInt32).toNat = 32 := rfl
    rw [this, Nat.mod_eq_of_lt (by omega)] at hb'
    omega
  · rfl

theorem lower_mem_falseStrings (s : Str) :
    s.map Char.toLower ∈ falseStrings ↔ s.map Char.toLower ∈ Spec.noWords := by
  have hfix : ∀ t ∈ falseStrings, t.map Char.toLower = t → t ∈ Spec.noWords := by decide
  have hidem : (s.map Char.toLower).map Char.toLower = s.map Char.toLower := by
    rw [List.map_map]
    refine List.map_congr_left fun c _ => ?_
    exact toLower_idem c
  constructor
  · intro h; exact hfix _ h hidem
  · intro h
    have : ∀ t ∈ Spec.noWords, t ∈ falseStrings := by decide
    exact this _ h

/-- C36: the zero array is forced iff the type is accumulation and the word given is not one of the words
for "no" in any letter case (no word given means no). -/
theorem C36_force_zero (a : JAggr) (s : Option Str) (hs : a.forceZero = s.map .str) :
    ∃ b, forceZero a = .ok b ∧
      (b = true ↔ a.type = .str "accumulation".toList ∧ ∃ w, s = some w ∧ w.map Char.toLower ∉ Spec.noWords) := by
  unfold forceZero
  by_cases ht : a.type = .str "accumulation".toList
  · rw [if_pos ht, hs]
    cases s with
    | none =>
      refine ⟨false, by decide +kernel, ?_⟩
      simp
    | some w =>
      refine ⟨_, rfl, ?_⟩
      rw [decide_eq_true_iff]
      unfold Str.lower
      rw [lower_mem_falseStrings]
      constructor
      · intro h; exact ⟨ht, w, rfl, h⟩
      · rintro ⟨-, w', hw, h⟩; cases hw; exact h
  · rw [if_neg ht]
    refine ⟨false, rfl, ?_⟩
    constructor
    · intro h; cases h
    · rintro ⟨h, -⟩; exact absurd h ht

example : forceZero ⟨.int 24, .str "accumulation".toList, some (.str "fAlSe".toList)⟩ = .ok false ∧
    forceZero ⟨.int 24, .str "accumulation".toList, some (.str "yes".toList)⟩ = .ok true := by decide +kernel

end PyG2P
