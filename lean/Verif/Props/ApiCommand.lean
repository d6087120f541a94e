import Verif.Model.ApiCommand
import Verif.Props.ApiStore
import Verif.Props.ApiRunTwo
import Verif.Props.TableCommandTwo

/-! # C186: the programming interface from its dictionary to the maps -/

namespace PyG2P
open ArgParse CommandRun Store Spec TableApply Converter Aggregator
variable {n m k : Nat}

namespace ApiCommand

/-! ## Options as a command line gives them -/

/-- Texts, numbers and flags where the options of a command line have them. -/
structure Typed (d : Dict Str JVal) : Prop where
  ints : ∀ name ∈ ["start", "end", "dataTime", "dataDate"], Dict.get? d name.toList = some (JVal.ofOption .int (asInt d name))
  nums : ∀ name ∈ ["fmap", "ext"], ∃ z, Dict.get? d name.toList = some (.int z)
  texts : ∀ name ∈ ["inputFile", "namePrefix", "scaleFactor", "offset", "validMin", "validMax", "valueFormat",
    "outputStepUnits", "intertableDir", "geopotentialDir"], Dict.get? d name.toList = some (JVal.ofOption .str (asText d name))
  flags : Dict.get? d "interpolationParallel".toList = some (.bool (asFlag d "interpolationParallel"))

theorem key_int {d : Dict Str JVal} (h : Typed d) {name : String} (hn : name ∈ ["start", "end", "dataTime", "dataDate"]) :
    key d name = JVal.ofOption .int (asInt d name) := by
  unfold key
  rw [h.ints name hn]
  rfl

theorem key_num {d : Dict Str JVal} (h : Typed d) {name : String} (hn : name ∈ ["fmap", "ext"]) :
    key d name = JVal.ofOption .int (asInt d name) ∧ asInt d name ≠ none := by
  obtain ⟨z, hz⟩ := h.nums name hn
  unfold key asInt
  rw [hz]
  exact ⟨rfl, by intro h; cases h⟩

theorem key_text {d : Dict Str JVal} (h : Typed d) {name : String} (hn : name ∈ ["inputFile", "namePrefix", "scaleFactor",
    "offset", "validMin", "validMax", "valueFormat", "outputStepUnits", "intertableDir", "geopotentialDir"]) :
    key d name = JVal.ofOption .str (asText d name) := by
  unfold key
  rw [h.texts name hn]
  rfl

theorem top_eq {d : Dict Str JVal} (h : Typed d) : topOf d = Api.ofCli (cliOf d) := by
  unfold topOf Api.ofCli cliOf
  rw [h.ints "start" (by decide), h.ints "end" (by decide), key_int h (by decide : "dataTime" ∈ _),
    key_int h (by decide : "dataDate" ∈ _), (key_num h (by decide : "fmap" ∈ _)).1, (key_num h (by decide : "ext" ∈ _)).1,
    key_text h (by decide : "namePrefix" ∈ _), key_text h (by decide : "scaleFactor" ∈ _), key_text h (by decide : "offset" ∈ _),
    key_text h (by decide : "validMin" ∈ _), key_text h (by decide : "validMax" ∈ _), key_text h (by decide : "valueFormat" ∈ _),
    key_text h (by decide : "outputStepUnits" ∈ _), key_text h (by decide : "intertableDir" ∈ _),
    key_text h (by decide : "geopotentialDir" ∈ _)]

theorem api_opt {d : Dict Str JVal} (h : Typed d) (j : Json) (a b : Str) (o : Opt) (hf : o ≠ .format) (ht : o ≠ .intertableDir)
    (hg : o ≠ .geopotentialDir) : Api.optValue (topOf d) j a b o = optValue (cliOf d) j a b o := by
  rw [top_eq h]
  exact api_options_partial (cliOf d) j a b o hf (fun _ => (key_num h (by decide : "fmap" ∈ _)).2)
    (fun _ => (key_num h (by decide : "ext" ∈ _)).2) (fun e => absurd e ht) (fun e => absurd e hg)

theorem api_aggr {a : Option (JAggr × JVal)} (hh : ∀ x v, a = some (x, v) → v.truthy = false) :
    aggrOf a = CommandRun.aggrOf a := by
  unfold aggrOf CommandRun.aggrOf
  cases a with
  | none => rfl
  | some p =>
    obtain ⟨x, v⟩ := p
    dsimp only [Option.map]
    rw [hh x v rfl]
    rfl

theorem aggr_half {a : Option (JAggr × JVal)} {r : Option (JAggr × Bool × Bool)} (h : aggrOf a = .ok r) :
    ∀ x hw z, r = some (x, hw, z) → hw = false := by
  unfold aggrOf CommandRun.aggrOf at h
  cases a with
  | none => intro x hw z e; rw [← Except.ok.inj h] at e; cases e
  | some p =>
    obtain ⟨x, v⟩ := p
    dsimp only [Option.map] at h
    cases hz : forceZero x with
    | error e => rw [hz] at h; cases h
    | ok z =>
      rw [hz] at h
      intro x' hw z' e
      rw [← Except.ok.inj h] at e
      split_ifs at e
      · cases e; rfl

theorem define_eq {s : Site n k} {d : Dict Str JVal} {cf : CmdFile} (h : Typed d)
    (hh : ∀ x v, cf.aggr = some (x, v) → v.truthy = false) :
    define s d cf = (CommandRun.define s (cliOf d) cf).map fun v => { v with format := .null } := by
  have hno : ¬ (Dict.get? d "inputFile".toList = none ∨ Dict.get? d "start".toList = none ∨ Dict.get? d "end".toList = none) := by
    rw [h.texts "inputFile" (by decide), h.ints "start" (by decide), h.ints "end" (by decide)]
    rintro (h | h | h) <;> cases h
  unfold define CommandRun.define
  rw [if_neg hno]
  have hfmt : ∃ f, optValue (cliOf d) cf.base s.tblDir s.geoDir .format = .ok f := ⟨_, rfl⟩
  obtain ⟨f, hfmt⟩ := hfmt
  have e := fun o a b c => api_opt h cf.base s.tblDir s.geoDir o a b c
  simp only [e .namePrefix (by decide) (by decide) (by decide), e .fmap (by decide) (by decide) (by decide),
    e .ext (by decide) (by decide) (by decide), e .tstart (by decide) (by decide) (by decide),
    e .tend (by decide) (by decide) (by decide), e .dataTime (by decide) (by decide) (by decide),
    e .dataDate (by decide) (by decide) (by decide), api_aggr hh, hfmt]
  show _ = Except.map _ _
  cases getParameter s.known s.parameters cf.base.shortName with
  | error e => rfl
  | ok cs =>
  cases hc : conversionOf cs cf.applyConversion with
  | error e => simp [hc]; rfl
  | ok cv =>
  simp only [ok_bind, hc]
  cases optValue (cliOf d) cf.base s.tblDir s.geoDir .namePrefix with
  | error e => rfl
  | ok o1 =>
  cases optValue (cliOf d) cf.base s.tblDir s.geoDir .fmap with
  | error e => rfl
  | ok o2 =>
  cases optValue (cliOf d) cf.base s.tblDir s.geoDir .ext with
  | error e => rfl
  | ok o3 =>
  cases optValue (cliOf d) cf.base s.tblDir s.geoDir .tstart with
  | error e => rfl
  | ok o4 =>
  cases optValue (cliOf d) cf.base s.tblDir s.geoDir .tend with
  | error e => rfl
  | ok o5 =>
  cases optValue (cliOf d) cf.base s.tblDir s.geoDir .dataTime with
  | error e => rfl
  | ok o6 =>
  cases optValue (cliOf d) cf.base s.tblDir s.geoDir .dataDate with
  | error e => rfl
  | ok o7 =>
  cases CommandRun.aggrOf cf.aggr with
  | error e => rfl
  | ok o8 =>
  cases expandDem s.special s.vars (correctionOf cf) with
  | error e => rfl
  | ok o9 =>
  cases interpolateOne s.special s.vars cf.cloneMap with
  | error e => rfl
  | ok o10 =>
  cases interpolateOne s.special s.vars cf.latMap with
  | error e => rfl
  | ok o11 =>
  cases interpolateOne s.special s.vars cf.lonMap with
  | error e => rfl
  | ok o12 => rfl

/-! ## The checks -/

theorem check_iff (fs : Fs) (p : Params) (c : Checked) : checkParams fs p = .ok c ↔
    (¬ given p.inputFile = false ∧ ¬ fs.isFile (p.inputFile.getD []) = false ∧
      ¬ (fs.isFile p.lonMap = false ∨ fs.isFile p.latMap = false) ∧ ¬ fs.isFile p.clone = false ∧ ¬ p.mode ∉ allowedMethods) ∧
    outDirOf fs p.outDir = .ok c.outDir ∧ levelOf p.level = .ok c.level ∧ unitTimeOf p.unitTime = .ok c.unitTime ∧
    ¬ (givenInt p.tstart ∧ givenInt p.tend ∧ ¬ p.tstart.getD 0 ≤ p.tend.getD 0) ∧
    ¬ (p.doCorrection ∧ ¬ (given p.gemFormula ∧ given p.demMap ∧ given p.formula)) ∧
    ¬ (p.doCorrection ∧ fs.isFile (p.demMap.getD []) = false) := by
  unfold checkParams
  by_cases c1 : given p.inputFile = false
  · rw [if_pos c1]; exact ⟨(fun h => by cases h), fun h => absurd c1 h.1.1⟩
  by_cases c2 : fs.isFile (p.inputFile.getD []) = false
  · rw [if_neg c1, if_pos c2]; exact ⟨(fun h => by cases h), fun h => absurd c2 h.1.2.1⟩
  by_cases c3 : fs.isFile p.lonMap = false ∨ fs.isFile p.latMap = false
  · rw [if_neg c1, if_neg c2, if_pos c3]; exact ⟨(fun h => by cases h), fun h => absurd c3 h.1.2.2.1⟩
  by_cases c4 : fs.isFile p.clone = false
  · rw [if_neg c1, if_neg c2, if_neg c3, if_pos c4]; exact ⟨(fun h => by cases h), fun h => absurd c4 h.1.2.2.2.1⟩
  by_cases c5 : p.mode ∉ allowedMethods
  · rw [if_neg c1, if_neg c2, if_neg c3, if_neg c4, if_pos c5]; exact ⟨(fun h => by cases h), fun h => absurd c5 h.1.2.2.2.2⟩
  rw [if_neg c1, if_neg c2, if_neg c3, if_neg c4, if_neg c5]
  cases hu : outDirOf fs p.outDir with
  | error e => exact ⟨(fun h => by cases h), (fun h => by cases h.2.1)⟩
  | ok u =>
  cases hl : levelOf p.level with
  | error e => exact ⟨(fun h => by cases h), (fun h => by cases h.2.2.1)⟩
  | ok l =>
  cases ht : unitTimeOf p.unitTime with
  | error e => exact ⟨(fun h => by cases h), (fun h => by cases h.2.2.2.1)⟩
  | ok t =>
  simp only [pure_bind, ok_bind]
  by_cases c6 : givenInt p.tstart ∧ givenInt p.tend ∧ ¬ p.tstart.getD 0 ≤ p.tend.getD 0
  · rw [if_pos c6]; exact ⟨(fun h => by cases h), fun h => absurd c6 h.2.2.2.2.1⟩
  rw [if_neg c6]
  by_cases c7 : p.doCorrection ∧ ¬ (given p.gemFormula ∧ given p.demMap ∧ given p.formula)
  · rw [if_pos c7]; exact ⟨(fun h => by cases h), fun h => absurd c7 h.2.2.2.2.2.1⟩
  rw [if_neg c7]
  by_cases c8 : p.doCorrection ∧ fs.isFile (p.demMap.getD []) = false
  · rw [if_pos c8]; exact ⟨(fun h => by cases h), fun h => absurd c8 h.2.2.2.2.2.2⟩
  rw [if_neg c8]
  constructor
  · intro h
    rw [← Except.ok.inj h]
    exact ⟨⟨c1, c2, c3, c4, c5⟩, rfl, rfl, rfl, c6, c7, c8⟩
  · rintro ⟨-, h1, h2, h3, -⟩
    rw [Except.ok.inj h1, Except.ok.inj h2, Except.ok.inj h3]
    rfl

theorem check_folder (fs : Fs) (p : Params) :
    (∀ c, checkParams fs p = .ok c → checkParams fs { p with outDir := "./".toList } = .ok { c with outDir := "./".toList }) ∧
    ∀ o c, outDirOf fs p.outDir = .ok o → checkParams fs { p with outDir := "./".toList } = .ok c →
      checkParams fs p = .ok { c with outDir := o } := by
  constructor
  · intro c h
    obtain ⟨h1, h2, h3⟩ := (check_iff fs p c).1 h
    exact (check_iff fs _ _).2 ⟨h1, rfl, h3⟩
  · intro o c ho h
    obtain ⟨h1, h2, h3⟩ := (check_iff fs _ c).1 h
    exact (check_iff fs p _).2 ⟨h1, ho, h3⟩

/-! ## Context and input -/

theorem context_of_command {s : Site n k} {d : Dict Str JVal} {cf : CmdFile} (h : Typed d)
    (hh : ∀ x v, cf.aggr = some (x, v) → v.truthy = false) (hcf : readCommands s d = .ok cf) {v : Defined} {c : Checked}
    (hc : CommandRun.context s d = .ok (v, c)) :
    context s d cf = .ok ({ v with format := .null }, { c with outDir := "./".toList }) := by
  unfold CommandRun.context at hc
  rw [hcf] at hc
  dsimp only at hc
  unfold context
  rw [define_eq h hh]
  cases hd : CommandRun.define s (cliOf d) cf with
  | error e => rw [hd] at hc; cases hc
  | ok v' =>
    rw [hd] at hc
    dsimp only [Except.map] at hc ⊢
    cases hk : checkParams s.fs (CommandRun.params d v') with
    | error e => rw [hk] at hc; cases hc
    | ok c' =>
      rw [hk] at hc
      have hc := Except.ok.inj hc
      have h1 : v' = v := congrArg Prod.fst hc
      have h2 : c' = c := congrArg Prod.snd hc
      subst h1 h2
      have := (check_folder s.fs (CommandRun.params d v')).1 c' hk
      have e : checkParams s.fs (params d { v' with format := .null }) = .ok { c' with outDir := "./".toList } := this
      rw [e]

theorem context_to_command {s : Site n k} {d : Dict Str JVal} {cf : CmdFile} (h : Typed d)
    (hh : ∀ x v, cf.aggr = some (x, v) → v.truthy = false) (hcf : readCommands s d = .ok cf) {v : Defined} {c : Checked}
    (hc : context s d cf = .ok (v, c)) {o : Str} (ho : outDirOf s.fs ((asText d "outDir").getD []) = .ok o) :
    ∃ v' : Defined, CommandRun.define s (cliOf d) cf = .ok v' ∧ v = { v' with format := .null } ∧ c.outDir = "./".toList ∧
      CommandRun.context s d = .ok (v', { c with outDir := o }) := by
  unfold context at hc
  rw [define_eq h hh] at hc
  unfold CommandRun.context
  rw [hcf]
  dsimp only
  cases hd : CommandRun.define s (cliOf d) cf with
  | error e => rw [hd] at hc; cases hc
  | ok v' =>
    rw [hd] at hc
    dsimp only [Except.map] at hc ⊢
    cases hk : checkParams s.fs (params d { v' with format := .null }) with
    | error e => rw [hk] at hc; cases hc
    | ok c' =>
      rw [hk] at hc
      have hc := Except.ok.inj hc
      have h1 : { v' with format := .null } = v := congrArg Prod.fst hc
      have h2 : c' = c := congrArg Prod.snd hc
      subst h2
      refine ⟨v', rfl, h1.symm, ?_, ?_⟩
      · obtain ⟨-, h3, -⟩ := (check_iff _ _ _).1 hk
        exact (Except.ok.inj h3).symm
      · have := (check_folder s.fs (CommandRun.params d v')).2 o c' ho hk
        rw [this]

theorem need_int {v : JVal} {z : Int} (h : needInt v = .ok z) : orOne v = v ∧ v = .int z := by
  cases v <;> first | (cases h; exact ⟨rfl, rfl⟩) | cases h

theorem file_of_command {s : Site n k} {d : Dict Str JVal} {v : Defined} {c : Checked} {x : FileIn n k}
    (h : CommandRun.fileIn s d v c = .ok x) (f : JVal) (o : Str) :
    fileIn s d { v with format := f } { c with outDir := o } = .ok x := by
  have h0 := h
  unfold CommandRun.fileIn at h
  obtain ⟨u, -, h⟩ := bind_ok_iff.1 h
  obtain ⟨a, -, h⟩ := bind_ok_iff.1 h
  obtain ⟨z1, e1, h⟩ := bind_ok_iff.1 h
  obtain ⟨z2, e2, h⟩ := bind_ok_iff.1 h
  unfold fileIn
  dsimp only
  rw [(need_int e1).1, (need_int e2).1]
  exact h0

/-- The input of a run, if the numbers of the maps are numbers. -/
theorem file_to_command {s : Site n k} {d : Dict Str JVal} {v : Defined} {c : Checked} {z1 z2 : Int}
    (h1 : v.fmap = .int z1) (h2 : v.ext = .int z2) (f : JVal) (o o' : Str) :
    fileIn s d { v with format := f } { c with outDir := o } = CommandRun.fileIn s d v { c with outDir := o' } := by
  cases v
  dsimp only at h1 h2
  subst h1 h2
  rfl

theorem file_clone {s : Site n k} {d : Dict Str JVal} {v : Defined} {c : Checked} {x : FileIn n k}
    (h : CommandRun.fileIn s d v c = .ok x) : x.mask = (s.clone v.clone).1 ∧ x.mvClone = (s.clone v.clone).2 ∧
      ((∀ y hw z, v.aggr = some (y, hw, z) → hw = false) → ∀ a, x.aggr = some a → a.halfweights = false) := by
  unfold CommandRun.fileIn at h
  obtain ⟨u, -, h⟩ := bind_ok_iff.1 h
  obtain ⟨a, ha, h⟩ := bind_ok_iff.1 h
  obtain ⟨z1, e1, h⟩ := bind_ok_iff.1 h
  obtain ⟨z2, e2, h⟩ := bind_ok_iff.1 h
  rw [← Except.ok.inj h]
  refine ⟨rfl, rfl, ?_⟩
  intro hv a' hx
  dsimp only at hx
  subst hx
  cases hva : v.aggr with
  | none => rw [hva] at ha; cases ha
  | some p =>
    obtain ⟨y, hw, z⟩ := p
    rw [hva] at ha
    have := hv y hw z hva
    subst this
    unfold aggrOpts at ha
    dsimp only at ha
    cases hi : JVal.toInt y.step with
    | error e => rw [hi] at ha; cases ha
    | ok st => rw [hi] at ha; cases ha; rfl

theorem define_clone {s : Site n k} {cli : Cli} {cf : CmdFile} {v : Defined} (h : CommandRun.define s cli cf = .ok v) :
    interpolateOne s.special s.vars cf.cloneMap = .ok v.clone ∧ CommandRun.aggrOf cf.aggr = .ok v.aggr ∧
    v.mode = textOf (cf.mode.getD (.str "grib_nearest".toList)) ∧
    optValue cli cf.base s.tblDir s.geoDir .fmap = .ok v.fmap ∧ optValue cli cf.base s.tblDir s.geoDir .ext = .ok v.ext ∧
    optValue cli cf.base s.tblDir s.geoDir .format = .ok v.format := by
  unfold CommandRun.define at h
  obtain ⟨cs, -, h⟩ := bind_ok_iff.1 h
  obtain ⟨cv, -, h⟩ := bind_ok_iff.1 h
  obtain ⟨o1, -, h⟩ := bind_ok_iff.1 h
  obtain ⟨o2, h2, h⟩ := bind_ok_iff.1 h
  obtain ⟨o3, h3, h⟩ := bind_ok_iff.1 h
  obtain ⟨o4, h4, h⟩ := bind_ok_iff.1 h
  obtain ⟨o5, -, h⟩ := bind_ok_iff.1 h
  obtain ⟨o6, -, h⟩ := bind_ok_iff.1 h
  obtain ⟨o7, -, h⟩ := bind_ok_iff.1 h
  obtain ⟨o8, -, h⟩ := bind_ok_iff.1 h
  obtain ⟨o9, h9, h⟩ := bind_ok_iff.1 h
  obtain ⟨o10, -, h⟩ := bind_ok_iff.1 h
  obtain ⟨o11, h11, h⟩ := bind_ok_iff.1 h
  obtain ⟨o12, -, h⟩ := bind_ok_iff.1 h
  obtain ⟨o13, -, h⟩ := bind_ok_iff.1 h
  rw [← Except.ok.inj h]
  exact ⟨h11, h9, rfl, h2, h3, h4⟩

theorem netcdf_no_files (ne : NumExpr) (x : FileIn n k) (known : Bool) (o : NcOut) (st : Py Int)
    (files : List (Str × (Fin k → Num))) (h : netcdfRun ne x known o = .ended st files) : files = [] := by
  unfold netcdfRun at h
  repeat' split at h
  all_goals first | (cases h; rfl) | cases h

theorem netcdf_second_no_files (ne : NumExpr) (s : Site n k) (v : Defined) (x : FileIn n k) (i : Str) (known : Bool)
    (o : NcOut) (st : Py Int) (files : List (Str × (Fin k → Num))) (h : netcdfSecond ne s v x i known o = .ended st files) :
    files = [] := by
  unfold netcdfSecond at h
  dsimp only at h
  repeat' split at h
  all_goals first | (cases h; rfl) | cases h

theorem same_renamed {mask : Option (Fin k → Bool)} {mv : Num} {out : List (Step × (Fin k → Num))}
    {files : List (Str × (Fin k → Num))} (f : Str → Str) :
    SameMaps mask mv out (files.map fun p => (f p.1, p.2)) ↔ SameMaps mask mv out files := by
  constructor
  · rintro ⟨h1, h2, h3, h4⟩
    refine ⟨by rw [h1, List.length_map], h2, h3, ?_⟩
    intro j p file hp hf c
    exact h4 j p (f file.1, file.2) hp (by rw [List.getElem?_map, hf]; rfl) c
  · rintro ⟨h1, h2, h3, h4⟩
    refine ⟨by rw [h1, List.length_map], h2, h3, ?_⟩
    intro j p file hp hf c
    rw [List.getElem?_map] at hf
    cases hj : files[j]? with
    | none => rw [hj] at hf; cases hf
    | some q =>
      rw [hj] at hf
      cases hf
      exact h4 j p q hp hj c

/-- The API run of a command that has an input, with the maps of the command. -/
theorem api_of_input (ne : NumExpr) (s : Site n k) (d : Dict Str JVal) (cf : CmdFile) (v : Defined) (c : Checked)
    (hctx : context s d cf = .ok (v, c)) (x : FileIn n k) (hx : fileIn s d v c = .ok x)
    (hx2 : ∀ a, x.aggr = some a → a.halfweights = false) :
    (∀ files, (if given (asText d "inputFile2") = true then pcrasterSecond ne s v x ((asText d "inputFile2").getD [])
        else x.pcraster ne) = .ok files → ∃ out, run ne s d cf = .ok out ∧ SameMaps x.mask x.mvClone out files) ∧
    ∀ e, run ne s d cf = .error e ↔ (if given (asText d "inputFile2") = true then
      pcrasterSecond ne s v x ((asText d "inputFile2").getD []) else x.pcraster ne) = .error e := by
  unfold run
  rw [hctx]
  dsimp only
  rw [hx]
  dsimp only
  by_cases h2 : given (asText d "inputFile2") = true
  · rw [if_pos h2]
    simp only [if_pos h2]
    unfold pcrasterSecond
    constructor
    · intro files hf
      obtain ⟨out, h1, h3, -⟩ := api_two_as_command ne _ _ (by exact hx2) files hf
      exact ⟨out, h1, h3⟩
    · intro e
      exact api_two_fails_as_command ne _ _ (by exact hx2) e
  · rw [if_neg h2]
    simp only [if_neg h2]
    constructor
    · intro files hf
      obtain ⟨out, h1, h3, -⟩ := api_as_command ne x hx2 files hf
      exact ⟨out, h1, h3⟩
    · exact fun e => api_fails_as_command ne x hx2 e

end ApiCommand

/-! ## What a command line gives has the types of the options -/

namespace ApiCommand

/-- A value an option can have. -/
def Fits (o : OptSpec) (v : JVal) : Prop := v = o.default ∨ ∃ t, valueOf o.kind t = some v

/-- every option has a value it can have. -/
def Fitted (d : Dict Str JVal) : Prop := ∀ o ∈ options, o.kind ≠ .help → ∃ v, Dict.get? d o.dest = some v ∧ Fits o v

theorem dest_inj : ∀ o ∈ options, ∀ p ∈ options, o.dest = p.dest → o = p := by decide +kernel

theorem names_options : ∀ p ∈ names, p.2 ∈ options := by
  intro p hp
  unfold names at hp
  obtain ⟨o, ho, hp⟩ := List.mem_flatMap.1 hp
  rcases List.mem_cons.1 hp with rfl | hp
  · exact ho
  · rw [List.mem_singleton.1 hp]; exact ho

theorem found_option {t : Str} {o : OptSpec} (h : findOpt t = some o) : o ∈ options := names_options _ (find_mem h)

theorem act_fitted {o : OptSpec} (ho : o ∈ options) {v : Str} {d d' : Dict Str JVal} (hd : Fitted d) (h : ArgParse.act o v d = .ok d') :
    Fitted d' := by
  have hk : o.kind ≠ .help := by
    intro e
    unfold ArgParse.act at h
    rw [e] at h
    cases h
  rw [act_eq hk] at h
  cases hv : valueOf o.kind v with
  | none => rw [hv] at h; cases h
  | some x =>
    rw [hv] at h
    rw [← Except.ok.inj h]
    intro p hp hpk
    by_cases e : p.dest = o.dest
    · have := dest_inj p hp o ho e
      subst this
      exact ⟨x, by rw [Dict.get?_set, if_pos rfl], .inr ⟨v, hv⟩⟩
    · obtain ⟨w, h1, h2⟩ := hd p hp hpk
      exact ⟨w, by rw [Dict.get?_set, if_neg fun h => e h.symm]; exact h1, h2⟩

theorem classify_option {t : Str} {o : OptSpec} {b : Bool} {a : Option Str} (h : classify t = some (.opt o b a)) :
    o ∈ options := by
  cases t with
  | nil => unfold classify at h; cases h
  | cons c r =>
    by_cases hc : c = '-'
    · subst hc
      rw [classify_cons] at h
      split at h
      · rename_i o' hf
        cases h
        exact found_option hf
      · by_cases hr : r = []
        · rw [if_pos hr] at h; cases h
        · rw [if_neg hr] at h
          split at h
          · rename_i o' v' hw
            cases h
            unfold withEq at hw
            split at hw
            · cases hw
            · cases hf : findOpt (splitEq ('-' :: r)).1 with
              | none => rw [hf] at hw; cases hw
              | some q => rw [hf] at hw; cases hw; exact found_option hf
          · split at h
            · rename_i t' hl
              cases h
              have hm : Tok.opt o b a ∈ candidates ('-' :: r) := by rw [hl]; exact List.mem_singleton.2 rfl
              unfold candidates at hm
              split_ifs at hm with h1
              · obtain ⟨p, hp, he⟩ := List.mem_filterMap.1 hm
                split_ifs at he
                cases he
                exact names_options p hp
              · obtain ⟨p, hp, he⟩ := List.mem_filterMap.1 hm
                split_ifs at he
                · cases he; exact names_options p hp
                · cases he; exact names_options p hp
            · cases h
            · split_ifs at h <;> cases h
    · unfold classify at h
      split at h
      · rename_i r' he
        cases he
        exact absurd rfl hc
      · cases h

theorem all_options (argv : List Str) : ∀ toks, classifyAll argv = some toks →
    ∀ q ∈ toks, ∀ o b a, q.2 = .opt o b a → o ∈ options := by
  induction argv with
  | nil => intro toks h; unfold classifyAll at h; cases h; intro q hq; cases hq
  | cons t rest ih =>
    intro toks h q hq o b a e
    unfold classifyAll at h
    split_ifs at h
    · cases h
      rcases List.mem_cons.1 hq with rfl | hq
      · cases e
      · obtain ⟨x, -, rfl⟩ := List.mem_map.1 hq
        cases e
    · split at h
      · rename_i t' l ht hl
        cases h
        rcases List.mem_cons.1 hq with rfl | hq
        · dsimp only at e
          subst e
          exact classify_option ht
        · exact ih l hl q hq o b a e
      · cases h

theorem chain_options (v : Str) : ∀ o ∈ options, ∀ pre o' v', chain o v = some (pre, o', v') →
    o' ∈ options ∧ ∀ p ∈ pre, p ∈ options := by
  induction v with
  | nil =>
    intro o ho pre o' v' h
    unfold chain at h
    split_ifs at h
    cases h
    exact ⟨ho, (by intro p hp; cases hp)⟩
  | cons c r ih =>
    intro o ho pre o' v' h
    unfold chain at h
    by_cases ht : o.takes = true
    · rw [if_pos ht] at h; cases h; exact ⟨ho, (by intro p hp; cases hp)⟩
    · rw [if_neg ht] at h
      split at h
      · cases h
      · rename_i o2 hf
        by_cases hr : r = []
        · rw [if_pos hr] at h
          cases h
          refine ⟨found_option hf, ?_⟩
          intro p hp
          rw [List.mem_singleton.1 hp]
          exact ho
        · rw [if_neg hr] at h
          cases hc : chain o2 r with
          | none => rw [hc] at h; cases h
          | some q =>
            obtain ⟨q1, q2, q3⟩ := q
            rw [hc] at h
            cases h
            obtain ⟨h1, h2⟩ := ih o2 (found_option hf) _ _ _ hc
            refine ⟨h1, ?_⟩
            intro p hp
            rcases List.mem_cons.1 hp with rfl | hp
            · exact ho
            · exact h2 p hp

theorem resolve_options {o : OptSpec} (ho : o ∈ options) {b : Bool} {a : Option Str} {pre : List OptSpec} {o' : OptSpec}
    {v' : Option Str} (h : resolve o b a = some (pre, o', v')) : o' ∈ options ∧ ∀ p ∈ pre, p ∈ options := by
  unfold resolve at h
  split at h
  · cases h; exact ⟨ho, (by intro p hp; cases hp)⟩
  · split_ifs at h
    · cases h; exact ⟨ho, (by intro p hp; cases hp)⟩
    · exact chain_options _ o ho pre o' v' h

theorem act_all_fitted (l : List OptSpec) : ∀ (d d' : Dict Str JVal), (∀ p ∈ l, p ∈ options) → Fitted d →
    actAll l d = .ok d' → Fitted d' := by
  induction l with
  | nil => intro d d' _ hd h; cases h; exact hd
  | cons o l ih =>
    intro d d' ho hd h
    unfold actAll at h
    rw [List.foldlM_cons] at h
    cases ha : ArgParse.act o [] d with
    | error e => rw [ha] at h; cases h
    | ok d1 =>
      rw [ha] at h
      exact ih d1 d' (fun p hp => ho p (List.mem_cons_of_mem _ hp)) (act_fitted (ho o List.mem_cons_self) hd ha) h

theorem consume_fitted (N : Nat) : ∀ (toks : List (Str × Tok)), toks.length ≤ N → ∀ (d d' : Dict Str JVal) (x x' : Bool),
    (∀ q ∈ toks, ∀ o b a, q.2 = .opt o b a → o ∈ options) → Fitted d → consume toks d x = .ok (d', x') → Fitted d' := by
  induction N with
  | zero =>
    intro toks hl d d' x x' _ hd h
    rw [List.length_eq_zero_iff.1 (Nat.le_zero.1 hl)] at h
    unfold consume at h
    cases h
    exact hd
  | succ N ih =>
    intro toks hl d d' x x' ho hd h
    cases toks with
    | nil => unfold consume at h; cases h; exact hd
    | cons q rest =>
      obtain ⟨t, tok⟩ := q
      have hl' : rest.length ≤ N := by simpa using hl
      have ho' : ∀ q ∈ rest, ∀ o b a, q.2 = .opt o b a → o ∈ options := fun q hq => ho q (List.mem_cons_of_mem _ hq)
      cases tok with
      | arg => unfold consume at h; exact ih rest hl' d d' _ x' ho' hd h
      | unknown => unfold consume at h; exact ih rest hl' d d' _ x' ho' hd h
      | opt o b a =>
        have hmem := ho _ List.mem_cons_self o b a rfl
        unfold consume at h
        cases hr : resolve o b a with
        | none => rw [hr] at h; cases h
        | some p =>
          obtain ⟨pre, o', v'⟩ := p
          obtain ⟨r1, r2⟩ := resolve_options hmem hr
          rw [hr] at h
          cases v' with
          | some v =>
            dsimp only at h
            cases h1 : actAll pre d with
            | error e => rw [h1] at h; cases h
            | ok d1 =>
              rw [h1] at h
              dsimp only at h
              cases h2 : ArgParse.act o' v d1 with
              | error e => rw [h2] at h; cases h
              | ok d2 =>
                rw [h2] at h
                exact ih rest hl' d2 d' x x' ho' (act_fitted r1 (act_all_fitted pre d d1 r2 hd h1) h2) h
          | none =>
            dsimp only at h
            by_cases ht : o'.takes = true
            · rw [if_pos ht] at h
              split at h
              · rename_i v rest'
                cases h1 : actAll pre d with
                | error e => rw [h1] at h; cases h
                | ok d1 =>
                  rw [h1] at h
                  dsimp only at h
                  cases h2 : ArgParse.act o' v d1 with
                  | error e => rw [h2] at h; cases h
                  | ok d2 =>
                    rw [h2] at h
                    exact ih rest' (by simp at hl'; omega) d2 d' x x' (fun q hq => ho' q (List.mem_cons_of_mem _ hq))
                      (act_fitted r1 (act_all_fitted pre d d1 r2 hd h1) h2) h
              · cases h
            · rw [if_neg ht] at h
              cases h1 : actAll pre d with
              | error e => rw [h1] at h; cases h
              | ok d1 =>
                rw [h1] at h
                dsimp only at h
                cases h2 : ArgParse.act o' [] d1 with
                | error e => rw [h2] at h; cases h
                | ok d2 =>
                  rw [h2] at h
                  exact ih rest hl' d2 d' x x' ho' (act_fitted r1 (act_all_fitted pre d d1 r2 hd h1) h2) h

theorem defaults_fitted : Fitted defaults := by
  have h : ∀ o ∈ options, o.kind ≠ .help → Dict.get? defaults o.dest = some o.default := by decide +kernel
  exact fun o ho hk => ⟨_, h o ho hk, .inl rfl⟩

theorem parsed_fitted {argv : List Str} {d : Dict Str JVal} (h : parseArgs argv = .ok (some d)) : Fitted d := by
  unfold parseArgs at h
  split_ifs at h
  split at h
  · cases h
  · rename_i toks ht
    split at h
    · cases h
    · cases h
    · cases h
    · rename_i d' hc
      cases h
      exact consume_fitted toks.length toks le_rfl _ _ _ _ (all_options argv toks ht) defaults_fitted hc

theorem fitted_typed {d : Dict Str JVal} (h : Fitted d) : Typed d := by
  have find : ∀ (name : String) (P : OptSpec → Bool), (options.any fun o => decide (o.kind ≠ .help) && decide (o.dest = name.toList) && P o) = true →
      ∃ o v, o ∈ options ∧ P o = true ∧ Dict.get? d name.toList = some v ∧ Fits o v := by
    intro name P hP
    obtain ⟨o, ho, hc⟩ := List.any_eq_true.1 hP
    simp only [Bool.and_eq_true, decide_eq_true_eq] at hc
    obtain ⟨v, h1, h2⟩ := h o ho hc.1.1
    exact ⟨o, v, ho, hc.2, by rw [← hc.1.2]; exact h1, h2⟩
  have number : ∀ (name : String) (dflt : JVal), (options.any fun o => decide (o.kind ≠ .help) && decide (o.dest = name.toList) &&
      (decide (o.default = dflt) && match o.kind with | .int => true | .intOf _ => true | _ => false)) = true →
      ∃ v, Dict.get? d name.toList = some v ∧ (v = dflt ∨ ∃ z, v = .int z) := by
    intro name dflt hP
    obtain ⟨o, v, -, hk, h1, h2⟩ := find name (fun o => decide (o.default = dflt) && match o.kind with | .int => true | .intOf _ => true | _ => false) hP
    simp only [Bool.and_eq_true, decide_eq_true_eq] at hk
    refine ⟨v, h1, ?_⟩
    rcases h2 with h2 | ⟨t, h2⟩
    · exact .inl (h2.trans hk.1)
    · right
      obtain ⟨-, hk⟩ := hk
      unfold valueOf at h2
      cases hkk : o.kind with
      | int =>
        rw [hkk] at h2
        dsimp only at h2
        split at h2
        · cases h2; exact ⟨_, rfl⟩
        · cases h2
      | intOf l =>
        rw [hkk] at h2
        dsimp only at h2
        split at h2
        · split_ifs at h2; cases h2; exact ⟨_, rfl⟩
        · cases h2
      | _ => rw [hkk] at hk; cases hk
  have text : ∀ (name : String), (options.any fun o => decide (o.kind ≠ .help) && decide (o.dest = name.toList) &&
      (decide (o.default = .null) && decide (o.kind = .text))) = true →
      ∃ v, Dict.get? d name.toList = some v ∧ (v = .null ∨ ∃ z, v = .str z) := by
    intro name hP
    obtain ⟨o, v, -, hk, h1, h2⟩ := find name (fun o => decide (o.default = .null) && decide (o.kind = .text)) hP
    simp only [Bool.and_eq_true, decide_eq_true_eq] at hk
    refine ⟨v, h1, ?_⟩
    rcases h2 with h2 | ⟨t, h2⟩
    · exact .inl (h2.trans hk.1)
    · rw [hk.2] at h2
      cases h2
      exact .inr ⟨_, rfl⟩
  have ints : ∀ name : String, (∃ v, Dict.get? d name.toList = some v ∧ (v = .null ∨ ∃ z, v = .int z)) →
      Dict.get? d name.toList = some (JVal.ofOption .int (asInt d name)) := by
    rintro name ⟨v, h1, rfl | ⟨z, rfl⟩⟩ <;> (unfold asInt; rw [h1]; rfl)
  have strs : ∀ name : String, (∃ v, Dict.get? d name.toList = some v ∧ (v = .null ∨ ∃ z, v = .str z)) →
      Dict.get? d name.toList = some (JVal.ofOption .str (asText d name)) := by
    rintro name ⟨v, h1, rfl | ⟨z, rfl⟩⟩ <;> (unfold asText; rw [h1]; rfl)
  refine ⟨?_, ?_, ?_, ?_⟩
  · intro name hn
    apply ints
    apply number name .null
    revert name
    decide +kernel
  · intro name hn
    have hopt : (options.any fun o => decide (o.kind ≠ .help) && decide (o.dest = name.toList) &&
        (decide (o.default = .int 1) && match o.kind with | .int => true | .intOf _ => true | _ => false)) = true := by
      revert name
      decide +kernel
    obtain ⟨v, h1, rfl | ⟨z, rfl⟩⟩ := number name (.int 1) hopt
    · exact ⟨_, h1⟩
    · exact ⟨_, h1⟩
  · intro name hn
    apply strs
    apply text name
    revert name
    decide +kernel
  · obtain ⟨o, v, -, hk, h1, h2⟩ := find "interpolationParallel" (fun o => decide (o.default = .bool false) && decide (o.kind = .flag))
      (by decide +kernel)
    simp only [Bool.and_eq_true, decide_eq_true_eq] at hk
    have : ∃ b, v = .bool b := by
      rcases h2 with h2 | ⟨t, h2⟩
      · exact ⟨_, h2.trans hk.1⟩
      · rw [hk.2] at h2
        cases h2
        exact ⟨_, rfl⟩
    obtain ⟨b, rfl⟩ := this
    unfold asFlag
    rw [h1]

end ApiCommand

open ApiCommand

/-- **C186.** A command that writes maps: the API run whose dictionary has the options that the command line gives and the
sections of the command file returns these maps. -/
theorem api_dict_as_command (ne : NumExpr) (s : Site n k) (argv : List Str) (d : Dict Str JVal)
    (hp : parseArgs argv = .ok (some d)) (cf : CmdFile) (hcf : readCommands s d = .ok cf)
    (hh : ∀ x v, cf.aggr = some (x, v) → v.truthy = false) (files : List (Str × (Fin k → Num))) (hne : files ≠ [])
    (hrun : CommandRun.run ne s argv = .ended (.ok 0) files) :
    ∃ out clone, ApiCommand.run ne s d cf = .ok out ∧ interpolateOne s.special s.vars cf.cloneMap = .ok clone ∧
      SameMaps (s.clone clone).1 (s.clone clone).2 out files := by
  have hT : Typed d := fitted_typed (parsed_fitted hp)
  unfold CommandRun.run at hrun
  rw [hp] at hrun
  dsimp only at hrun
  cases hctx : (if isConfigCommand (argsOf d) then (.error .keyError : Py (Defined × Checked)) else CommandRun.context s d) with
  | error e => rw [hctx] at hrun; cases hrun
  | ok vc =>
    obtain ⟨v, c⟩ := vc
    rw [hctx] at hrun
    have hctx' : CommandRun.context s d = .ok (v, c) := by
      split_ifs at hctx
      exact hctx
    have hapi := context_of_command hT hh hcf hctx'
    have hdef : CommandRun.define s (cliOf d) cf = .ok v := by
      unfold CommandRun.context at hctx'
      rw [hcf] at hctx'
      dsimp only at hctx'
      cases hd : CommandRun.define s (cliOf d) cf with
      | error e => rw [hd] at hctx'; cases hctx'
      | ok v' =>
        rw [hd] at hctx'
        dsimp only at hctx'
        cases hk : checkParams s.fs (CommandRun.params d v') with
        | error e => rw [hk] at hctx'; cases hctx'
        | ok c' => rw [hk] at hctx'; exact congrArg Except.ok (congrArg Prod.fst (Except.ok.inj hctx'))
    obtain ⟨d1, d2, -⟩ := define_clone hdef
    have hhalf : ∀ y hw z, v.aggr = some (y, hw, z) → hw = false :=
      aggr_half ((api_aggr hh).trans d2)
    dsimp only at hrun
    have key : ∀ fs', ((CommandRun.fileIn s d v c).bind fun x => if given (asText d "inputFile2") = true then
        pcrasterSecond ne s v x ((asText d "inputFile2").getD []) else x.pcraster ne) = .ok fs' →
        ∃ out, ApiCommand.run ne s d cf = .ok out ∧ SameMaps (s.clone v.clone).1 (s.clone v.clone).2 out fs' := by
      intro fs' hb
      obtain ⟨x, hx, hb⟩ := bind_ok_iff.1 hb
      obtain ⟨m1, m2, m3⟩ := file_clone hx
      obtain ⟨out, o1, o2⟩ := (api_of_input ne s d cf _ _ hapi x (file_of_command hx .null _) (m3 hhalf)).1 fs' hb
      rw [m1, m2] at o2
      exact ⟨out, o1, o2⟩
    by_cases h2 : given (asText d "inputFile2") = true
    · rw [if_pos h2] at hrun
      simp only [if_pos h2] at key
      by_cases hf : v.format = .str "pcraster".toList
      · rw [if_pos hf] at hrun
        cases hb : (CommandRun.fileIn s d v c).bind fun x => pcrasterSecond ne s v x ((asText d "inputFile2").getD []) with
        | error e =>
          rw [hb] at hrun
          injection hrun with _ h
          exact absurd h.symm hne
        | ok fs' =>
          rw [hb] at hrun
          cases hrun
          obtain ⟨out, o1, o2⟩ := key fs' hb
          exact ⟨out, v.clone, o1, d1, (same_renamed _).2 o2⟩
      · rw [if_neg hf] at hrun
        split at hrun
        · exact absurd (netcdf_second_no_files ne s v _ _ _ _ _ _ hrun) hne
        · cases hrun
    · rw [if_neg h2] at hrun
      simp only [if_neg h2] at key
      by_cases hf : v.format = .str "pcraster".toList
      · rw [if_pos hf] at hrun
        cases hb : (CommandRun.fileIn s d v c).bind fun x => x.pcraster ne with
        | error e =>
          rw [hb] at hrun
          injection hrun with _ h
          exact absurd h.symm hne
        | ok fs' =>
          rw [hb] at hrun
          cases hrun
          obtain ⟨out, o1, o2⟩ := key fs' hb
          exact ⟨out, v.clone, o1, d1, (same_renamed _).2 o2⟩
      · rw [if_neg hf] at hrun
        split at hrun
        · exact absurd (netcdf_no_files ne _ _ _ _ _ hrun) hne
        · cases hrun

/-- The command of an API run that has an input, with PCRaster output. -/
theorem ApiCommand.command_of_api (ne : NumExpr) (s : Site n k) (argv : List Str) (d : Dict Str JVal)
    (hp : parseArgs argv = .ok (some d)) (hK : isConfigCommand (argsOf d) = false) (v : Defined) (c : Checked)
    (hctx : CommandRun.context s d = .ok (v, c)) (hf : v.format = .str "pcraster".toList) (x : FileIn n k)
    (hx : CommandRun.fileIn s d v c = .ok x) :
    CommandRun.run ne s argv =
      match (if given (asText d "inputFile2") = true then pcrasterSecond ne s v x ((asText d "inputFile2").getD [])
        else x.pcraster ne) with
      | .error e => .ended (statusOf e) []
      | .ok files => .ended (.ok 0) (files.map fun p => (osJoin c.outDir p.1, p.2)) := by
  unfold CommandRun.run
  rw [hp]
  dsimp only
  rw [hK, if_neg (by decide), hctx]
  dsimp only
  rw [hx, if_pos hf, if_pos hf]
  by_cases h2 : given (asText d "inputFile2") = true
  · rw [if_pos h2, if_pos h2]; rfl
  · rw [if_neg h2, if_neg h2]; rfl

/-- **C186**, the other way round. If the command is not a configuration command and asks for PCRaster output, its output
folder is there or can be made, and the numbers of its maps are numbers: it writes the maps that the API run returns, or
ends with the status of the error that ends the API run. -/
theorem command_as_api_dict (ne : NumExpr) (s : Site n k) (argv : List Str) (d : Dict Str JVal)
    (hp : parseArgs argv = .ok (some d)) (hK : isConfigCommand (argsOf d) = false) (cf : CmdFile)
    (hcf : readCommands s d = .ok cf) (hh : ∀ x v, cf.aggr = some (x, v) → v.truthy = false)
    (hf : optValue (cliOf d) cf.base s.tblDir s.geoDir .format = .ok (.str "pcraster".toList))
    (o : Str) (ho : outDirOf s.fs ((asText d "outDir").getD []) = .ok o)
    (hn : ∃ z, optValue (cliOf d) cf.base s.tblDir s.geoDir .fmap = .ok (.int z))
    (hn2 : ∃ z, optValue (cliOf d) cf.base s.tblDir s.geoDir .ext = .ok (.int z)) :
    (∀ out, ApiCommand.run ne s d cf = .ok out → ∃ files clone, CommandRun.run ne s argv = .ended (.ok 0) files ∧
      interpolateOne s.special s.vars cf.cloneMap = .ok clone ∧
      SameMaps (s.clone clone).1 (s.clone clone).2 out files) ∧
    ∀ e, ApiCommand.run ne s d cf = .error e → CommandRun.run ne s argv = .ended (.ok 1) [] ∨
      CommandRun.run ne s argv = .ended (if e.isApp then .ok (if e = .app 3000 then 0 else 1) else .error e) [] := by
  have hT : Typed d := fitted_typed (parsed_fitted hp)
  have hrun0 : ∀ e, CommandRun.context s d = .error e → CommandRun.run ne s argv = .ended (.ok 1) [] := by
    intro e he
    unfold CommandRun.run
    rw [hp]
    dsimp only
    rw [hK, if_neg (by decide), he]
  cases hctx : ApiCommand.context s d cf with
  | error e' =>
    constructor
    · intro out hout
      unfold ApiCommand.run at hout
      rw [hctx] at hout
      cases hout
    · intro e _
      left
      cases hc : CommandRun.context s d with
      | error e1 => exact hrun0 e1 hc
      | ok vc =>
        obtain ⟨v, c⟩ := vc
        rw [context_of_command hT hh hcf hc] at hctx
        cases hctx
  | ok vc =>
    obtain ⟨v0, c⟩ := vc
    obtain ⟨v, hdef, rfl, hc, hcom⟩ := context_to_command hT hh hcf hctx ho
    obtain ⟨d1, d2, -, d3, d4, d5⟩ := define_clone hdef
    obtain ⟨z1, hn⟩ := hn
    obtain ⟨z2, hn2⟩ := hn2
    have hv1 : v.fmap = .int z1 := Except.ok.inj (d3.symm.trans hn)
    have hv2 : v.ext = .int z2 := Except.ok.inj (d4.symm.trans hn2)
    have hvf : v.format = .str "pcraster".toList := Except.ok.inj (d5.symm.trans hf)
    have hhalf : ∀ y hw z, v.aggr = some (y, hw, z) → hw = false := aggr_half ((api_aggr hh).trans d2)
    have hfile := file_to_command (s := s) (d := d) (c := c) hv1 hv2 .null c.outDir o
    cases hx : CommandRun.fileIn s d v { c with outDir := o } with
    | error e' =>
      have hrun1 : ApiCommand.run ne s d cf = .error e' := by
        unfold ApiCommand.run
        rw [hctx]
        dsimp only
        rw [show ApiCommand.fileIn s d { v with format := .null } c = .error e' from hfile.trans hx]
      constructor
      · intro out hout; rw [hrun1] at hout; cases hout
      · intro e he
        rw [hrun1] at he
        right
        rw [← Except.error.inj he]
        unfold CommandRun.run
        rw [hp]
        dsimp only
        rw [hK, if_neg (by decide), hcom]
        dsimp only
        rw [hx, if_pos hvf, if_pos hvf]
        split_ifs <;> first | rfl | (simp_all [Except.bind, statusOf])
    | ok x =>
      obtain ⟨m1, m2, m3⟩ := file_clone hx
      obtain ⟨g1, g2⟩ := api_of_input ne s d cf _ _ hctx x (hfile.trans hx) (m3 hhalf)
      have hcmd := command_of_api ne s argv d hp hK v _ hcom hvf x hx
      rw [m1, m2] at g1
      cases hr : (if given (asText d "inputFile2") = true then pcrasterSecond ne s v x ((asText d "inputFile2").getD [])
          else x.pcraster ne) with
      | error e' =>
        rw [hr] at hcmd
        have := (g2 e').2 hr
        constructor
        · intro out hout; rw [this] at hout; cases hout
        · intro e he
          rw [this] at he
          right
          rw [hcmd, ← Except.error.inj he]
          rfl
      | ok files =>
        rw [hr] at hcmd
        obtain ⟨out', h1, h3⟩ := g1 files hr
        constructor
        · intro out hout
          rw [h1] at hout
          rw [← Except.ok.inj hout]
          exact ⟨_, v.clone, hcmd, d1, (same_renamed _).2 h3⟩
        · intro e he; rw [h1] at he; cases he

/-! ## Tables -/

namespace ApiCommand

theorem lookup_eq {s : Site n k} {ts : TableSite k} {d : Dict Str JVal} (hT : Typed d) {cf : CmdFile}
    (hcf : readCommands s d = .ok cf) (ht : cf.base.intertableDir = .null) (hdir : s.tblDir ≠ []) {v : Defined} {f : JVal}
    {input file : Str} {q : Lookup k} (h : CommandRun.lookupOf s ts d v input file = .ok q) :
    lookupOf s ts (ts.splits (commandsPath s.cwd ((asText d "commandsFile").getD []))) d cf { v with format := f } input file = q ∧
      q.scipy = (ts.method (asFlag d "interpolationParallel") v.mode v.latMap v.lonMap file).scipy := by
  unfold CommandRun.lookupOf at h
  rw [hcf] at h
  have h := Except.ok.inj h
  have hdirs : Api.optValue (topOf d) cf.base s.tblDir s.geoDir .intertableDir =
      optValue (cliOf d) cf.base s.tblDir s.geoDir .intertableDir := by
    rw [top_eq hT]
    exact api_options_partial (cliOf d) cf.base s.tblDir s.geoDir .intertableDir (by decide)
      (fun e => by cases e) (fun e => by cases e) (fun _ => ht) (fun e => by cases e)
  subst h
  unfold lookupOf
  rw [hdirs, hT.flags]
  dsimp only
  rw [if_neg hdir]
  exact ⟨rfl, rfl⟩

theorem nc_in_no_files (le : Str → Str → Bool) (ne : NumExpr) (w : Store (Table k)) (q q2 : Lookup k) (x : FileIn n k)
    (known : Bool) (o : NcOut) (r : Py (RunIn n m k)) (st : Py Int) (files : List (Str × (Fin k → Num))) (w' : Store (Table k))
    (h : ncIn le ne w q q2 x known o r = (.ended st files, w')) : files = [] := by
  unfold ncIn at h
  dsimp only at h
  repeat' split at h
  all_goals first | (cases h; rfl) | cases h

end ApiCommand

/-- **C186**, tables. A method with a search tree or triangles; the folder of tables is not set in the section
`Interpolation`, and the configuration has one. If the command leaves maps, the API run whose dictionary has its options and
sections, on the same tables, ends without error exactly when the command does, with the error that gives the command its
status otherwise; it leaves the same tables; and if there is no error it returns the maps. -/
theorem api_dict_tables (le : Str → Str → Bool) (ne : NumExpr) (missing : PyErr) (s : Site n k) (ts : TableSite k)
    (w : Store (Table k)) (argv : List Str) (d : Dict Str JVal) (hp : parseArgs argv = .ok (some d)) (cf : CmdFile)
    (hcf : readCommands s d = .ok cf) (hh : ∀ x v, cf.aggr = some (x, v) → v.truthy = false)
    (ht : cf.base.intertableDir = .null) (hdir : s.tblDir ≠ [])
    (hsc : ∀ lat lon file, (ts.method (asFlag d "interpolationParallel") (textOf (cf.mode.getD (.str "grib_nearest".toList)))
      lat lon file).scipy = true)
    (st : Py Int) (files : List (Str × (Fin k → Num))) (hne : files ≠ []) (w' : Store (Table k))
    (hrun : CommandRun.runIn le ne s ts w argv = (.ended st files, w')) :
    ∃ a clone, a = ApiCommand.runIn le ne missing s ts
        (ts.splits (commandsPath s.cwd ((asText d "commandsFile").getD []))) w d cf ∧
      a.store = w' ∧
      st = (match a.error with
        | none => .ok 0
        | some e => if e.isApp then .ok (if e = .app 3000 then 0 else 1) else .error e) ∧
      interpolateOne s.special s.vars cf.cloneMap = .ok clone ∧
      (a.error = none → SameMaps (s.clone clone).1 (s.clone clone).2 a.maps files) := by
  have hT : Typed d := fitted_typed (parsed_fitted hp)
  unfold CommandRun.runIn at hrun
  rw [hp] at hrun
  dsimp only at hrun
  cases hctx : (if isConfigCommand (argsOf d) then (.error .keyError : Py (Defined × Checked)) else CommandRun.context s d) with
  | error e => rw [hctx] at hrun; injection hrun with h; injection h with _ h; exact absurd h.symm hne
  | ok vc =>
    obtain ⟨v, c⟩ := vc
    rw [hctx] at hrun
    have hctx' : CommandRun.context s d = .ok (v, c) := by
      split_ifs at hctx
      exact hctx
    have hapi := context_of_command hT hh hcf hctx'
    have hdef : CommandRun.define s (cliOf d) cf = .ok v := by
      unfold CommandRun.context at hctx'
      rw [hcf] at hctx'
      dsimp only at hctx'
      cases hd : CommandRun.define s (cliOf d) cf with
      | error e => rw [hd] at hctx'; cases hctx'
      | ok v' =>
        rw [hd] at hctx'
        dsimp only at hctx'
        cases hk : checkParams s.fs (CommandRun.params d v') with
        | error e => rw [hk] at hctx'; cases hctx'
        | ok c' => rw [hk] at hctx'; exact congrArg Except.ok (congrArg Prod.fst (Except.ok.inj hctx'))
    obtain ⟨d1, d2, d3, -⟩ := define_clone hdef
    have hhalf : ∀ y hw z, v.aggr = some (y, hw, z) → hw = false := aggr_half ((api_aggr hh).trans d2)
    dsimp only at hrun
    cases hx : CommandRun.fileIn s d v c with
    | error e => rw [hx] at hrun; injection hrun with h; injection h with _ h; exact absurd h.symm hne
    | ok x =>
    obtain ⟨m1, m2, m3⟩ := file_clone hx
    have m3 := m3 hhalf
    rw [hx] at hrun
    cases hq : CommandRun.lookupOf s ts d v ((asText d "inputFile").getD []) ((asText d "inputFile").getD []) with
    | error e => rw [hq] at hrun; injection hrun with h; injection h with _ h; exact absurd h.symm hne
    | ok q =>
    rw [hq] at hrun
    cases hq2 : CommandRun.lookupOf s ts d v ((asText d "inputFile").getD []) ((asText d "inputFile2").getD []) with
    | error e => rw [hq2] at hrun; injection hrun with h; injection h with _ h; exact absurd h.symm hne
    | ok q2 =>
    rw [hq2] at hrun
    dsimp only at hrun
    obtain ⟨l1, l2⟩ := lookup_eq (f := .null) hT hcf ht hdir hq
    obtain ⟨l3, l4⟩ := lookup_eq (f := .null) hT hcf ht hdir hq2
    rw [d3, hsc] at l2 l4
    have hfile := file_of_command hx .null "./".toList
    refine ⟨_, v.clone, rfl, ?_⟩
    unfold ApiCommand.runIn
    rw [hapi]
    dsimp only
    rw [hfile]
    dsimp only
    rw [l1, l3, ← m1, ← m2]
    by_cases hf : v.format = .str "pcraster".toList
    · rw [if_pos hf] at hrun
      by_cases h2 : given (asText d "inputFile2") = true
      · rw [if_pos h2] at hrun
        simp only [if_pos h2]
        unfold pcrIn at hrun
        cases hr : x.settingsTwo (s.second ((asText d "inputFile2").getD [])).2 with
        | error e => rw [hr] at hrun; injection hrun with h; injection h with _ h; exact absurd h.symm hne
        | ok r =>
          rw [hr] at hrun
          unfold endPcr at hrun
          obtain ⟨a1, a2, a3⟩ := api_two_tables_as_command le ne missing w q q2 l2 l4 x _ m3 r hr
          injection hrun with h1 h3
          injection h1 with h4 h5
          refine ⟨a2.trans h3, ?_, d1, ?_⟩
          · rw [a1, ← h4]; rfl
          · intro he
            rw [← h5]
            exact (same_renamed _).2 (a3 (a1.symm.trans he))
      · rw [if_neg h2] at hrun
        simp only [if_neg h2]
        obtain ⟨a1, a2, a3⟩ := api_tables_as_command le ne missing w q l2 x m3
        have hrun' : endPcr c.outDir (x.pcrasterIn le ne w q) = (.ended st files, w') := by
          unfold pcrIn at hrun
          unfold FileIn.pcrasterIn
          cases hr : x.settings with
          | error e => rw [hr] at hrun; injection hrun with h; injection h with _ h; exact absurd h.symm hne
          | ok r => rw [hr] at hrun; exact hrun
        unfold endPcr at hrun'
        injection hrun' with h1 h3
        injection h1 with h4 h5
        refine ⟨a2.trans h3, ?_, d1, ?_⟩
        · rw [a1, ← h4]; rfl
        · intro he
          rw [← h5]
          exact (same_renamed _).2 (a3 (a1.symm.trans he))
    · rw [if_neg hf] at hrun
      split at hrun
      · injection hrun with h; injection h with _ h; exact absurd h.symm hne
      · split_ifs at hrun
        · exact absurd (nc_in_no_files le ne w _ _ _ _ _ _ _ _ _ hrun) hne
        · exact absurd (nc_in_no_files le ne w _ _ _ _ _ _ _ _ _ hrun) hne

/-- **C186**, tables, from the API to the command. As `api_dict_tables`, with PCRaster output in a folder that can be used,
and whole numbers for the names of the maps. An API run and the command, on the same tables, leave the same tables; if the API
run ends without error the command ends with status 0 and has written the maps returned; otherwise the command ends
with status 1 (settings refused), or as the error of the API run ends a command. -/
theorem command_as_api_dict_tables (le : Str → Str → Bool) (ne : NumExpr) (missing : PyErr) (s : Site n k) (ts : TableSite k)
    (w : Store (Table k)) (argv : List Str) (d : Dict Str JVal) (hp : parseArgs argv = .ok (some d))
    (hK : isConfigCommand (argsOf d) = false) (cf : CmdFile)
    (hcf : readCommands s d = .ok cf) (hh : ∀ x v, cf.aggr = some (x, v) → v.truthy = false)
    (ht : cf.base.intertableDir = .null) (hdir : s.tblDir ≠ [])
    (hsc : ∀ lat lon file, (ts.method (asFlag d "interpolationParallel") (textOf (cf.mode.getD (.str "grib_nearest".toList)))
      lat lon file).scipy = true)
    (hf : optValue (cliOf d) cf.base s.tblDir s.geoDir .format = .ok (.str "pcraster".toList))
    (o : Str) (ho : outDirOf s.fs ((asText d "outDir").getD []) = .ok o)
    (hn : ∃ z, optValue (cliOf d) cf.base s.tblDir s.geoDir .fmap = .ok (.int z))
    (hn2 : ∃ z, optValue (cliOf d) cf.base s.tblDir s.geoDir .ext = .ok (.int z)) :
    ∃ a, a = ApiCommand.runIn le ne missing s ts
        (ts.splits (commandsPath s.cwd ((asText d "commandsFile").getD []))) w d cf ∧
      ∃ st files, CommandRun.runIn le ne s ts w argv = (.ended st files, a.store) ∧
        match a.error with
        | none => st = .ok 0 ∧ ∃ clone, interpolateOne s.special s.vars cf.cloneMap = .ok clone ∧
            SameMaps (s.clone clone).1 (s.clone clone).2 a.maps files
        | some e => st = .ok 1 ∨ st = if e.isApp then .ok (if e = .app 3000 then 0 else 1) else .error e := by
  have hT : Typed d := fitted_typed (parsed_fitted hp)
  refine ⟨_, rfl, ?_⟩
  unfold CommandRun.runIn
  rw [hp]
  dsimp only
  rw [hK, if_neg (by decide)]
  cases hctx : ApiCommand.context s d cf with
  | error e' =>
    have ha : ApiCommand.runIn le ne missing s ts
        (ts.splits (commandsPath s.cwd ((asText d "commandsFile").getD []))) w d cf = ⟨[], some e', w⟩ := by
      unfold ApiCommand.runIn
      rw [hctx]
    rw [ha]
    cases hc : CommandRun.context s d with
    | error e1 => exact ⟨_, _, rfl, .inl rfl⟩
    | ok vc =>
      obtain ⟨v, c⟩ := vc
      rw [context_of_command hT hh hcf hc] at hctx
      cases hctx
  | ok vc =>
    obtain ⟨v0, c⟩ := vc
    obtain ⟨v, hdef, rfl, hc, hcom⟩ := context_to_command hT hh hcf hctx ho
    obtain ⟨d1, d2, d6, d3, d4, d5⟩ := define_clone hdef
    obtain ⟨z1, hn⟩ := hn
    obtain ⟨z2, hn2⟩ := hn2
    have hv1 : v.fmap = .int z1 := Except.ok.inj (d3.symm.trans hn)
    have hv2 : v.ext = .int z2 := Except.ok.inj (d4.symm.trans hn2)
    have hvf : v.format = .str "pcraster".toList := Except.ok.inj (d5.symm.trans hf)
    have hhalf : ∀ y hw z, v.aggr = some (y, hw, z) → hw = false := aggr_half ((api_aggr hh).trans d2)
    have hfile := file_to_command (s := s) (d := d) (c := c) hv1 hv2 .null c.outDir o
    rw [hcom]
    dsimp only
    unfold ApiCommand.runIn
    rw [hctx]
    dsimp only
    rw [show ApiCommand.fileIn s d { v with format := .null } c = _ from hfile]
    cases hx : CommandRun.fileIn s d v { c with outDir := o } with
    | error e' =>
      dsimp only
      exact ⟨_, _, rfl, .inr (by rw [if_pos hvf]; rfl)⟩
    | ok x =>
      obtain ⟨m1, m2, m3⟩ := file_clone hx
      have m3 := m3 hhalf
      have hall : ∀ file, ∃ q, CommandRun.lookupOf s ts d v ((asText d "inputFile").getD []) file = .ok q := by
        intro file
        unfold CommandRun.lookupOf
        rw [hcf]
        exact ⟨_, rfl⟩
      obtain ⟨q, hq⟩ := hall ((asText d "inputFile").getD [])
      obtain ⟨q2, hq2⟩ := hall ((asText d "inputFile2").getD [])
      rw [hq, hq2]
      dsimp only
      obtain ⟨l1, l2⟩ := lookup_eq (f := .null) hT hcf ht hdir hq
      obtain ⟨l3, l4⟩ := lookup_eq (f := .null) hT hcf ht hdir hq2
      rw [d6, hsc] at l2 l4
      rw [l1, l3, if_pos hvf]
      by_cases h2 : given (asText d "inputFile2") = true
      · simp only [if_pos h2]
        cases hr : x.settingsTwo (s.second ((asText d "inputFile2").getD [])).2 with
        | error e =>
          have ha : x.apiMapsTwoIn le ne missing w q q2 (s.second ((asText d "inputFile2").getD [])).2 = ⟨[], some e, w⟩ := by
            unfold FileIn.apiMapsTwoIn
            rw [withoutHalf_eq m3, hr]
          rw [ha]
          exact ⟨_, _, rfl, .inr rfl⟩
        | ok r =>
          obtain ⟨a1, a2, a3⟩ := api_two_tables_as_command le ne missing w q q2 l2 l4 x _ m3 r hr
          rw [m1, m2] at a3
          unfold pcrIn endPcr
          refine ⟨_, _, congrArg (Prod.mk _) a2.symm, ?_⟩
          rw [← a1]
          cases he : (x.apiMapsTwoIn le ne missing w q q2 (s.second ((asText d "inputFile2").getD [])).2).error with
          | some e => exact .inr rfl
          | none => exact ⟨rfl, v.clone, d1, (same_renamed _).2 (a3 (a1.symm.trans he))⟩
      · simp only [if_neg h2]
        obtain ⟨a1, a2, a3⟩ := api_tables_as_command le ne missing w q l2 x m3
        rw [m1, m2] at a3
        have hp' : CommandRun.pcrIn le ne w q q o x.settings = endPcr o (x.pcrasterIn le ne w q) := by
          unfold pcrIn FileIn.pcrasterIn
          cases hr : x.settings <;> rfl
        rw [hp']
        unfold endPcr
        refine ⟨_, _, congrArg (Prod.mk _) a2.symm, ?_⟩
        rw [← a1]
        cases he : (x.apiMapsIn le ne missing w q).error with
        | some e => exact .inr rfl
        | none => exact ⟨rfl, v.clone, d1, (same_renamed _).2 (a3 (a1.symm.trans he))⟩

/-- Tables are looked for and made as with the option that needs it switched on, if the dictionary does not say. -/
theorem api_dict_parallel_default (le : Str → Str → Bool) (ne : NumExpr) (missing : PyErr) (s : Site n k) (ts : TableSite k)
    (splits : Option Nat) (w : Store (Table k)) (d d' : Dict Str JVal) (cf : CmdFile)
    (h : ∀ key, key ≠ "interpolationParallel".toList → Dict.get? d key = Dict.get? d' key)
    (h0 : Dict.get? d "interpolationParallel".toList = none)
    (h1 : Dict.get? d' "interpolationParallel".toList = some (.bool true)) :
    ApiCommand.runIn le ne missing s ts splits w d cf = ApiCommand.runIn le ne missing s ts splits w d' cf := by
  have hg : ∀ key : String, key.toList ≠ "interpolationParallel".toList →
      Dict.get? d key.toList = Dict.get? d' key.toList := fun key hk => h _ hk
  have htx : ∀ key : String, key.toList ≠ "interpolationParallel".toList → asText d key = asText d' key := by
    intro key hk; unfold asText; rw [hg key hk]
  have hit : ∀ key : String, key.toList ≠ "interpolationParallel".toList → asInt d key = asInt d' key := by
    intro key hk; unfold asInt; rw [hg key hk]
  have hfl : ∀ key : String, key.toList ≠ "interpolationParallel".toList → asFlag d key = asFlag d' key := by
    intro key hk; unfold asFlag; rw [hg key hk]
  have htop : topOf d = topOf d' := by
    unfold topOf ApiCommand.key
    rw [hg "start" (by decide), hg "end" (by decide), hg "dataTime" (by decide), hg "dataDate" (by decide), hg "fmap" (by decide), hg "ext" (by decide), hg "namePrefix" (by decide), hg "scaleFactor" (by decide), hg "offset" (by decide), hg "validMin" (by decide), hg "validMax" (by decide), hg "valueFormat" (by decide), hg "outputStepUnits" (by decide), hg "intertableDir" (by decide), hg "geopotentialDir" (by decide)]
  have hdef : ApiCommand.define s d cf = ApiCommand.define s d' cf := by
    unfold ApiCommand.define
    rw [htop, hg "inputFile" (by decide), hg "start" (by decide), hg "end" (by decide)]
  have hpar : ∀ v, ApiCommand.params d v = ApiCommand.params d' v := by
    intro v
    unfold ApiCommand.params CommandRun.params
    simp only [htx "inputFile" (by decide), htx "outDir" (by decide)]
  have hctx : ApiCommand.context s d cf = ApiCommand.context s d' cf := by
    unfold ApiCommand.context
    rw [hdef]
    simp only [hpar]
  have hfile : ∀ v c, ApiCommand.fileIn s d v c = ApiCommand.fileIn s d' v c := by
    intro v c
    unfold ApiCommand.fileIn CommandRun.fileIn
    simp only [htx "inputFile" (by decide), hit "perturbationNumber" (by decide)]
  have hl : ∀ v input file, ApiCommand.lookupOf s ts splits d cf v input file = ApiCommand.lookupOf s ts splits d' cf v input file := by
    intro v input file
    unfold ApiCommand.lookupOf
    rw [htop, h0, h1, hfl "createIntertable" (by decide)]
    rfl
  have h2 := htx "inputFile2" (by decide)
  unfold ApiCommand.runIn
  rw [h2]
  simp only [hctx, hfile, hl, htx "inputFile" (by decide)]

/-- The output folder, the format of the output and the command file play no part in an API run: the dictionary may leave
them out or give anything. -/
theorem api_dict_no_output (le : Str → Str → Bool) (ne : NumExpr) (missing : PyErr) (s : Site n k) (ts : TableSite k)
    (splits : Option Nat) (w : Store (Table k)) (d d' : Dict Str JVal) (cf : CmdFile)
    (h : ∀ key, key ≠ "outDir".toList → key ≠ "format".toList → key ≠ "commandsFile".toList →
      Dict.get? d key = Dict.get? d' key) :
    ApiCommand.runIn le ne missing s ts splits w d cf = ApiCommand.runIn le ne missing s ts splits w d' cf := by
  have hg : ∀ key : String, key.toList ∉ ["outDir".toList, "format".toList, "commandsFile".toList] →
      Dict.get? d key.toList = Dict.get? d' key.toList := by
    intro key hk
    simp only [List.mem_cons, List.not_mem_nil, or_false, not_or] at hk
    exact h _ hk.1 hk.2.1 hk.2.2
  have htx : ∀ key : String, key.toList ∉ ["outDir".toList, "format".toList, "commandsFile".toList] → asText d key = asText d' key := by
    intro key hk; unfold asText; rw [hg key hk]
  have hit : ∀ key : String, key.toList ∉ ["outDir".toList, "format".toList, "commandsFile".toList] → asInt d key = asInt d' key := by
    intro key hk; unfold asInt; rw [hg key hk]
  have hfl : ∀ key : String, key.toList ∉ ["outDir".toList, "format".toList, "commandsFile".toList] → asFlag d key = asFlag d' key := by
    intro key hk; unfold asFlag; rw [hg key hk]
  have htop : topOf d = topOf d' := by
    unfold topOf ApiCommand.key
    rw [hg "start" (by decide), hg "end" (by decide), hg "dataTime" (by decide), hg "dataDate" (by decide), hg "fmap" (by decide), hg "ext" (by decide), hg "namePrefix" (by decide), hg "scaleFactor" (by decide), hg "offset" (by decide), hg "validMin" (by decide), hg "validMax" (by decide), hg "valueFormat" (by decide), hg "outputStepUnits" (by decide), hg "intertableDir" (by decide), hg "geopotentialDir" (by decide)]
  have hdef : ApiCommand.define s d cf = ApiCommand.define s d' cf := by
    unfold ApiCommand.define
    rw [htop, hg "inputFile" (by decide), hg "start" (by decide), hg "end" (by decide)]
  have hpar : ∀ v, ApiCommand.params d v = ApiCommand.params d' v := by
    intro v
    unfold ApiCommand.params CommandRun.params
    simp only [htx "inputFile" (by decide)]
  have hctx : ApiCommand.context s d cf = ApiCommand.context s d' cf := by
    unfold ApiCommand.context
    rw [hdef]
    simp only [hpar]
  have hfile : ∀ v c, ApiCommand.fileIn s d v c = ApiCommand.fileIn s d' v c := by
    intro v c
    unfold ApiCommand.fileIn CommandRun.fileIn
    simp only [htx "inputFile" (by decide), hit "perturbationNumber" (by decide)]
  have hl : ∀ v input file, ApiCommand.lookupOf s ts splits d cf v input file = ApiCommand.lookupOf s ts splits d' cf v input file := by
    intro v input file
    unfold ApiCommand.lookupOf
    rw [htop, hg "interpolationParallel" (by decide), hfl "createIntertable" (by decide)]
  have h2 := htx "inputFile2" (by decide)
  unfold ApiCommand.runIn
  rw [h2]
  simp only [hctx, hfile, hl, htx "inputFile" (by decide)]

/-- **C186 is violated** by a dictionary that leaves out the first or the last step, which a command line may: the API run
fails with a plain `KeyError`. -/
theorem api_dict_needs_steps (ne : NumExpr) (s : Site n k) (d : Dict Str JVal) (cf : CmdFile)
    (h : Dict.get? d "start".toList = none ∨ Dict.get? d "end".toList = none) :
    ApiCommand.run ne s d cf = .error .keyError := by
  unfold ApiCommand.run ApiCommand.context ApiCommand.define
  rw [if_pos (by rcases h with h | h; exact .inr (.inl h); exact .inr (.inr h))]
  rfl

/-- The same on tables: nothing is returned and the tables are as before. -/
theorem api_dict_needs_steps_tables (le : Str → Str → Bool) (ne : NumExpr) (missing : PyErr) (s : Site n k)
    (ts : TableSite k) (splits : Option Nat) (w : Store (Table k)) (d : Dict Str JVal) (cf : CmdFile)
    (h : Dict.get? d "start".toList = none ∨ Dict.get? d "end".toList = none) :
    ApiCommand.runIn le ne missing s ts splits w d cf = ⟨[], some .keyError, w⟩ := by
  unfold ApiCommand.runIn ApiCommand.context ApiCommand.define
  rw [if_pos (by rcases h with h | h; exact .inr (.inl h); exact .inr (.inr h))]
  rfl

namespace Demo

/-- the dictionary for the command line of `rainItems`. -/
def rainDict : Dict Str JVal := (ArgParse.defaults.map fun p =>
  if p.1 = "commandsFile".toList then (p.1, .str "./cmd.json".toList)
  else if p.1 = "inputFile".toList then (p.1, .str "rain.grb".toList)
  else if p.1 = "start".toList then (p.1, .int 12)
  else if p.1 = "outDir".toList then (p.1, .str "out".toList) else p)

theorem rain_parsed : parseArgs (argv rainItems) = .ok (some rainDict) := by decide +kernel

/-- C186: the API run returns two maps, 12 and 16, for the steps 12 and 18; the command writes them. -/
example : (ApiCommand.run (fun _ => none) rainSite rainDict rainCmd).map (fun l => l.map fun p => (p.1.endStep, p.2 0)) =
      .ok [(12, .fin 12), (18, .fin 16)] ∧
    ∃ out files, ApiCommand.run (fun _ => none) rainSite rainDict rainCmd = .ok out ∧
      CommandRun.run (fun _ => none) rainSite (argv rainItems) = .ended (.ok 0) files ∧ SameMaps none .nan out files := by
  refine ⟨by decide +kernel, ?_⟩
  obtain ⟨files, h1, h2⟩ := maps_of (r := CommandRun.run (fun _ => none) rainSite (argv rainItems))
    (p := ("out/R0000000.001", .fin 12)) (l := [("out/R0000000.002", .fin 16)]) (by decide +kernel)
  obtain ⟨out, clone, h3, -, h4⟩ := api_dict_as_command (fun _ => none) rainSite (argv rainItems) rainDict rain_parsed rainCmd
    rfl (by intro x v h; cases h; rfl) files h2 h1
  exact ⟨out, files, h3, h1, h4⟩

/-- C186: the same from the API run. -/
example : ∀ out, ApiCommand.run (fun _ => none) rainSite rainDict rainCmd = .ok out →
    ∃ files clone, CommandRun.run (fun _ => none) rainSite (argv rainItems) = .ended (.ok 0) files ∧
      interpolateOne rainSite.special rainSite.vars rainCmd.cloneMap = .ok clone ∧
      SameMaps (rainSite.clone clone).1 (rainSite.clone clone).2 out files :=
  (command_as_api_dict (fun _ => none) rainSite (argv rainItems) rainDict rain_parsed (by decide +kernel) rainCmd
    rfl (by intro x v h; cases h; rfl) (by decide +kernel) "out/".toList (by decide +kernel) ⟨1, by decide +kernel⟩
    ⟨1, by decide +kernel⟩).1

/-- the dictionary for the command line of `makeItems`. -/
def makeDict : Dict Str JVal := Dict.set rainDict "createIntertable".toList (.bool true)

theorem make_parsed : parseArgs (argv makeItems) = .ok (some makeDict) := by decide +kernel

/-- C186, tables: the first run on a grid can be one of the API; it returns the maps that the command would write and leaves
the same tables. -/
example (le : Str → Str → Bool) (missing : PyErr) : ∃ files w',
    runIn le (fun _ => none) (cellSite { rainCmd with aggr := none } rain none) cellTables bare (argv makeItems) =
      (.ended (.ok 0) files, w') ∧ files.length = 3 ∧
    ∃ a, a = ApiCommand.runIn le (fun _ => none) missing (cellSite { rainCmd with aggr := none } rain none) cellTables none
        bare makeDict { rainCmd with aggr := none } ∧ a.store = w' := by
  obtain ⟨R, ord, files, h1, h2, h3, h4, h5, h6⟩ := command_table_plain_run le [] [] (fun _ => none)
    (cellSite { rainCmd with aggr := none } rain none) cellTables bare (bare_reached le) makeItems
    { rainReq with aggr := none } (with_create (cell_command none none (Or.inl ⟨rfl, rfl⟩) rain none)) rfl (by decide)
    ⟨true, "/t/".toList, none, false⟩ (make_asked _ rfl _ _) (bare_no_table _ _) (can_create _ _ _) (by simp [cellTables])
    (.nearest cellDist 3) cell_answers id (-9999) rain rfl (by decide +kernel) rfl _ rfl 18 rain_last _ rfl
    (fun h => absurd (congrArg List.length h) (by decide +kernel)) 10
    (by decide +kernel) (differ_of_ends (by decide +kernel)) (by decide +kernel) (by decide +kernel)
    (.inl ⟨.inr rfl, rfl⟩)
  have hlen : files.length = 3 := h5.trans (h2.length_eq.trans (by decide +kernel))
  obtain ⟨g1, -⟩ := h4
  have hrun : runIn le (fun _ => none) (cellSite { rainCmd with aggr := none } rain none) cellTables bare (argv makeItems) =
      (.ended (.ok 0) files, (runIn le (fun _ => none) (cellSite { rainCmd with aggr := none } rain none) cellTables bare
        (argv makeItems)).2) := by
    rw [← g1]
  obtain ⟨a, clone, a1, a2, -⟩ := api_dict_tables le (fun _ => none) missing (cellSite { rainCmd with aggr := none } rain none)
    cellTables bare (argv makeItems) makeDict make_parsed { rainCmd with aggr := none } rfl (by intro x v h; cases h) rfl
    (by decide) (by intro _ _ _; rfl) _ files (by intro h; rw [h] at hlen; cases hlen) _ hrun
  exact ⟨files, _, hrun, hlen, a, a1, a2⟩

/-- C186: an API run that makes its table, and the command. -/
example (le : Str → Str → Bool) (missing : PyErr) :
    ∃ a, a = ApiCommand.runIn le (fun _ => none) missing (cellSite { rainCmd with aggr := none } rain none) cellTables none
        bare makeDict { rainCmd with aggr := none } ∧
      ∃ st files, runIn le (fun _ => none) (cellSite { rainCmd with aggr := none } rain none) cellTables bare (argv makeItems) =
        (.ended st files, a.store) := by
  obtain ⟨a, h1, st, files, h2, -⟩ := command_as_api_dict_tables le (fun _ => none) missing
    (cellSite { rainCmd with aggr := none } rain none)
    cellTables bare (argv makeItems) makeDict make_parsed (by decide +kernel) { rainCmd with aggr := none } rfl
    (by intro x v h; cases h) rfl
    (by decide) (by intro _ _ _; rfl) (by decide +kernel) "out/".toList (by decide +kernel) ⟨1, by decide +kernel⟩
    ⟨1, by decide +kernel⟩
  exact ⟨a, h1, st, files, h2⟩

/-- C186: the API dictionary of a command line with or without its output folder. -/
example (le : Str → Str → Bool) (missing : PyErr) (w : Store (Table 250)) :
    ApiCommand.runIn le (fun _ => none) missing (cellSite { rainCmd with aggr := none } rain none) cellTables none w
      [("outDir".toList, .str "out".toList), ("inputFile".toList, .str "rain.grb".toList), ("start".toList, .int 12),
        ("end".toList, .null)] { rainCmd with aggr := none } =
    ApiCommand.runIn le (fun _ => none) missing (cellSite { rainCmd with aggr := none } rain none) cellTables none w
      [("inputFile".toList, .str "rain.grb".toList), ("start".toList, .int 12), ("end".toList, .null)]
      { rainCmd with aggr := none } := by
  refine api_dict_no_output _ _ _ _ _ _ _ _ _ _ ?_
  intro key hk _ _
  exact if_neg (Ne.symm hk)

/-- C186: a dictionary that does not say how triangles are to be interpolated. -/
example (le : Str → Str → Bool) (missing : PyErr) (w : Store (Table 250)) :
    ApiCommand.runIn le (fun _ => none) missing (cellSite { rainCmd with aggr := none } rain none) cellTables none w
      [("inputFile".toList, .str "rain.grb".toList), ("start".toList, .int 12), ("end".toList, .null)]
      { rainCmd with aggr := none } =
    ApiCommand.runIn le (fun _ => none) missing (cellSite { rainCmd with aggr := none } rain none) cellTables none w
      [("interpolationParallel".toList, .bool true), ("inputFile".toList, .str "rain.grb".toList), ("start".toList, .int 12),
        ("end".toList, .null)]
      { rainCmd with aggr := none } := by
  refine api_dict_parallel_default _ _ _ _ _ _ _ _ _ _ ?_ (by decide) (by decide)
  intro key hk
  exact (if_neg (Ne.symm hk)).symm

end Demo

end PyG2P
