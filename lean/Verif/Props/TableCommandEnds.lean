import Verif.Props.TableCommandTwo

/-! # Commands on a folder of tables that end before a map is computed -/

namespace PyG2P
open ArgParse CommandRun Store Spec TableApply Converter Aggregator
variable {n m k : Nat}

theorem no_named_info (x : FileIn n k) (hidx : x.indexable = true) (h : ∀ m ∈ x.file, named x.sel m = false) :
    (Reader.gribInfo x.file x.reader (infoCmd x.sel)).1 = .error (.app 3000) := by
  have hsrc0 : x.reader.src = .index x.sel.perturbation.isSome := by
    unfold FileIn.reader Reader.init
    rw [hidx]
    rfl
  obtain ⟨g, r1, hg, -, he⟩ := info_found x.file x.reader _ hsrc0 x.sel
  have hgn : g = [] := he (by
    rw [List.filter_eq_nil_iff]
    intro m hm
    rw [h m hm]
    decide)
  exact ((C27_no_messages x.file x.reader r1 _ g hg).1 hgn).1

theorem no_named_settings_two (x : FileIn n k) (y : SecondFile m) (hidx : x.indexable = true)
    (h : ∀ m ∈ x.file, named x.sel m = false) : x.settingsTwo y = .error (.app 3000) := by
  have := no_named_info x hidx h
  unfold FileIn.settingsTwo
  generalize Reader.gribInfo x.file x.reader (infoCmd x.sel) = o at this
  obtain ⟨o, r2⟩ := o
  dsimp only at this
  subst this
  rfl

namespace CommandRun

theorem run_in_early (le : Str → Str → Bool) (ne : NumExpr) (s : Site n k) (ts : TableSite k) (w : Store (Table k))
    (line : List Str) (res : Result k) (h : Early s line res) : runIn le ne s ts w line = (res, w) := by
  unfold runIn
  rcases h with ⟨⟨e, h⟩, rfl⟩ | ⟨h, rfl⟩ | ⟨d, hp, hctx, rfl⟩
  · rw [h]
  · rw [h]
  · rw [hp]
    dsimp only
    rcases hctx with hk | ⟨e, hctx⟩
    · rw [hk]; rfl
    · rw [hctx]
      cases isConfigCommand (argsOf d) <;> rfl

theorem unnamed (s : Site n k) (r : Request) (h : ∀ m ∈ (s.grib r.input).1, m.shortName ≠ r.shortName) :
    ∀ m ∈ (runOf s r).file, named (runOf s r).sel m = false := by
  intro m hm
  unfold Spec.named
  rw [show decide (m.shortName = (runOf s r).sel.shortName) = false from decide_eq_false (h m hm)]
  rfl

end CommandRun

/-- **C174.** Whatever tables there are: a command line that is not accepted ends with status 1 and changes none. -/
theorem tables_kept_bad_line (le : Str → Str → Bool) (ne : NumExpr) (s : Site n k) (ts : TableSite k) (w : Store (Table k))
    (line : List Str) (h : BadLine line) : runIn le ne s ts w line = (.ended (.ok 1) [], w) :=
  run_in_early le ne s ts w line _ (bad_line_early s line h)

/-- **C174**: help asked for after any options, with `-B` or not. -/
theorem tables_kept_help (le : Str → Str → Bool) (ne : NumExpr) (s : Site n k) (ts : TableSite k) (w : Store (Table k))
    (items : List (Written × Str × JVal)) (h : ∀ q ∈ items, Sets q.1 q.2.1 q.2.2) (name : Str)
    (hn : name = "-h".toList ∨ name = "--help".toList) : runIn le ne s ts w (argv items ++ [name]) = (.help, w) :=
  run_in_early le ne s ts w _ _ (help_early s items h name hn)

/-- **C174**: a request that lacks something. -/
theorem tables_kept_unmet (le : Str → Str → Bool) (ne : NumExpr) (s : Site n k) (ts : TableSite k) (w : Store (Table k))
    (items : List (Written × Str × JVal)) (r : Request)
    (h : ∀ q ∈ items, Sets q.1 q.2.1 q.2.2) (hcwd : s.cwd ≠ []) (cmd : Str)
    (hc : LastGiven items "commandsFile".toList (.str cmd)) (hf : s.fs.isFile (located s.cwd cmd) = true)
    (hr : Requested s items (s.commands (located s.cwd cmd)) r) (hun : Unmet s.fs r) :
    runIn le ne s ts w (argv items) = (.ended (.ok 1) [], w) :=
  run_in_early le ne s ts w _ _ (unmet_early s items r h hcwd cmd hc hf hr hun)

/-- **C174**: no command file, or a configuration command. -/
theorem tables_kept_no_commands (le : Str → Str → Bool) (ne : NumExpr) (s : Site n k) (ts : TableSite k)
    (w : Store (Table k)) (items : List (Written × Str × JVal)) (h0 : items ≠ [])
    (h : ∀ q ∈ items, Sets q.1 q.2.1 q.2.2) (hcwd : s.cwd ≠ [])
    (hc : Absent items "commandsFile" ∨
      (∃ cmd, LastGiven items "commandsFile".toList (.str cmd) ∧ s.fs.isFile (located s.cwd cmd) = false) ∨
      (∃ x, LastGiven items "downloadConf".toList (.str x) ∧ x ≠ []) ∨
      LastGiven items "checkConf".toList (.bool true)) :
    runIn le ne s ts w (argv items) = (.ended (.ok 1) [], w) :=
  run_in_early le ne s ts w _ _ (no_commands_early s items h0 h hcwd hc)

/-- **C174**: no message of the parameter in an indexed file: status 0 in every format, and no table is made or read. -/
theorem tables_kept_no_messages (le : Str → Str → Bool) (ne : NumExpr) (s : Site n k) (ts : TableSite k)
    (w : Store (Table k)) (items : List (Written × Str × JVal)) (r : Request) (hcom : Command s items r)
    (a : TableReq) (hask : TableAsked s ts items a)
    (hfmt : r.format = "pcraster".toList ∨ (r.format ≠ "pcraster".toList ∧ ∃ o, NcCommand s items r o))
    (hidx : (s.grib r.input).2 = true) (h : ∀ m ∈ (s.grib r.input).1, m.shortName ≠ r.shortName) :
    runIn le ne s ts w (argv items) = (.ended (.ok 0) [], w) := by
  rcases hfmt with hfmt | ⟨hfmt, o, hnc⟩
  · rw [table_core le ne s ts w items r hcom a hask hfmt, no_named_settings (runOf s r) hidx (unnamed s r h)]
    rfl
  · rw [table_core_nc le ne s ts w items r hcom a hask hfmt o hnc]
    unfold ncIn
    rw [no_named_info (runOf s r) hidx (unnamed s r h)]
    rfl

/-- **C174**: the same with a second file, which may hold messages of the parameter. -/
theorem tables_kept_no_messages_two (le : Str → Str → Bool) (ne : NumExpr) (s : Site n k) (ts : TableSite k)
    (w : Store (Table k)) (items : List (Written × Str × JVal)) (r : Request) (input2 : Str)
    (hcom : TwoFileCommand s items r input2) (a : TableReq) (hask : TableAsked s ts items a)
    (hfmt : r.format = "pcraster".toList ∨ (r.format ≠ "pcraster".toList ∧ ∃ o, NcCommand s items r o))
    (hidx : (s.grib r.input).2 = true) (h : ∀ m ∈ (s.grib r.input).1, m.shortName ≠ r.shortName) :
    runIn le ne s ts w (argv items) = (.ended (.ok 0) [], w) := by
  rcases hfmt with hfmt | ⟨hfmt, o, hnc⟩
  · rw [table_core_two le ne s ts w items r input2 hcom a hask hfmt,
      no_named_settings_two (runOf s r) _ hidx (unnamed s r h)]
    rfl
  · rw [table_core_nc_two le ne s ts w items r input2 hcom a hask hfmt o hnc]
    unfold ncIn
    rw [no_named_info (runOf s r) hidx (unnamed s r h)]
    rfl

namespace Demo

/-- C174: a stray word and help after `-B`. -/
example (le : Str → Str → Bool) (ts : TableSite 1) (w : Store (Table 1)) :
    runIn le (fun _ => none) rainSite ts w (argv makeItems ++ ["x".toList] ++ argv []) = (.ended (.ok 1) [], w) ∧
    runIn le (fun _ => none) rainSite ts w (argv makeItems ++ ["-h".toList]) = (.help, w) :=
  ⟨tables_kept_bad_line le _ _ ts w _ (.stray _ _ _ (with_create rain_command).written (by intro q h; cases h) (by decide)
    (by intro u hu; rw [List.mem_singleton] at hu; subst hu; exact Or.inl (by unfold Spec.Loose; decide))),
    tables_kept_help le _ _ ts w makeItems (with_create rain_command).written _ (Or.inl rfl)⟩

/-- C174: an unknown method, no command file. -/
example (le : Str → Str → Bool) (ts : TableSite 1) (w : Store (Table 1)) :
    runIn le (fun _ => none)
      { rainSite with commands := fun _ => { rainCmd with mode := some (.str "other".toList) } } ts w (argv makeItems) =
      (.ended (.ok 1) [], w) ∧
    runIn le (fun _ => none) rainSite ts w ["-B".toList] = (.ended (.ok 1) [], w) := by
  constructor
  · obtain ⟨h1, h2, ⟨cmd, h3, h4, h5⟩, h6, h7⟩ := with_create rain_command
    exact tables_kept_unmet le _ _ ts w makeItems { rainReq with mode := "other".toList } h1 h2 cmd h3 h4
      { h5 with mode := Or.inr rfl } (.inr (.inr (.inr (.inr (.inr (.inl (by decide)))))))
  · exact tables_kept_no_commands le _ _ ts w [(.switch "-B".toList, "createIntertable".toList, .bool true)] (by decide)
      (by
        intro q hq
        rw [List.mem_singleton] at hq
        subst hq
        exact ⟨("-B", "--createIntertable"), by unfold Spec.switches; simp, Or.inl rfl,
          (show "createIntertable".toList = List.drop 2 "--createIntertable".toList by decide), rfl⟩)
      (by decide) (Or.inl (by intro q hq; rw [List.mem_singleton] at hq; subst hq; decide))

/-- C174: empty files. -/
example (le : Str → Str → Bool) (w : Store (Table 250)) :
    runIn le (fun _ => none) (cellSite { rainCmd with aggr := none } [] none) cellTables w (argv makeItems) =
      (.ended (.ok 0) [], w) ∧
    runIn le (fun _ => none) (pairSite (twoCmd (.str "30".toList) sixHours) [] (rest id) none) pairTables w
      (argv pairItems) = (.ended (.ok 0) [], w) ∧
    runIn le (fun _ => none) (pairSite ((gridNcSite (⟨.int 6, .str "accumulation".toList, none⟩, .null)).commands []) []
      (rest id) none) pairTables w (argv pairItems) = (.ended (.ok 0) [], w) :=
  ⟨tables_kept_no_messages le _ _ cellTables w makeItems { rainReq with aggr := none }
      (with_create (cell_command none none (Or.inl ⟨rfl, rfl⟩) [] none)) _ (make_asked _ rfl _ _) (Or.inl rfl) rfl
      (by intro q hq; cases hq),
    tables_kept_no_messages_two le _ _ pairTables w pairItems (twoReq (some 30) (some accOpts)) _
      (pair_command _ _ aggr_in _ _ _) _ (pair_asked _ rfl _ _ _) (Or.inl rfl) rfl (by intro q hq; cases hq),
    tables_kept_no_messages_two le _ _ pairTables w pairItems (gridNcReq accOpts) _
      (pair_nc_command _ _ aggr_in _ _ _) _ (pair_asked _ rfl _ _ _)
      (Or.inr ⟨by decide, _, pair_nc_asked _ accOpts _ _ _⟩) rfl (by intro q hq; cases hq)⟩

end Demo

end PyG2P
