import Verif.Model.TableCommand
import Verif.Props.TableRun
import Verif.Props.NetcdfKinds
import Verif.Props.TwoFileCommand
import Verif.Props.UserConfMore

/-! # Commands that create their table -/

namespace PyG2P
open ArgParse CommandRun Store Spec Converter Aggregator
variable {n k : Nat}

namespace Spec

/-- What a command says about tables: may they be created (`-B`), in which folder, in how many pieces, and in
parallel (`-X`)? -/
structure TableReq where
  create : Bool
  dir : Str
  splits : Option Nat
  parallel : Bool

/-- The request about tables that command line and command file make. -/
structure TableAsked (s : Site n k) (ts : TableSite k) (items : List (Written × Str × JVal)) (a : TableReq) : Prop where
  create : Typed items "createIntertable" (.bool false) (.bool a.create)
  parallel : Typed items "interpolationParallel" (.bool false) (.bool a.parallel)
  file : ∀ cmd, LastGiven items "commandsFile".toList (.str cmd) →
    Chosen items (s.commands (located s.cwd cmd)).base s.tblDir s.geoDir .intertableDir (.str a.dir) ∧
      ts.splits (located s.cwd cmd) = a.splits

/-- The methods and how they are marked in the identifiers of tables. -/
def marks : List (Str × Str) :=
  [("grib_nearest", "grib_nearest"), ("grib_invdist", "grib_invdist"), ("nearest", "scipy_nearest"),
    ("invdist", "scipy_invdist"), ("adw", "scipy_adw"), ("cdd", "scipy_cdd"), ("bilinear", "scipy_bilinear"),
    ("triangulation", "scipy_triangulation"), ("bilinear_delaunay", "scipy_bilinear_delaunay")].map
      fun p => (p.1.toList, p.2.toList)

/-- No table is registered for the grids and the method of the request. -/
def NoTable (w : Store (Table k)) (ts : TableSite k) (r : Request) : Prop :=
  ∀ mark, (r.mode, mark) ∈ marks →
    tableId (ts.gridId r.input) (ts.target r.latMap r.lonMap) mark ∉ Dict.keys w.conf.vars

/-- The request may be met with a new table: creation is asked for, the folder of the configuration is there and can be
written, and a folder for the tables is known (no file there is compressed twice). -/
structure CanCreate (w : Store (Table k)) (s : Site n k) (ts : TableSite k) (a : TableReq) : Prop where
  asked : a.create = true
  folder : s.tblDir ≠ [] ∧ ts.isDir s.tblDir = true ∧ ts.canWrite s.tblDir = true
  dir : a.dir ≠ []
  files : ∀ p ∈ Dict.keys w.files, ∀ s : Str, p.2 ≠ s ++ ".gz".toList ++ ".gz".toList

/-- The command ends with result `res` on tables `w`; and so does, after any further history of runs and restarts, every
command that makes the same request (in the same folder of tables, with property `P`), whether it may create tables or
not. -/
def EndsAlways (le : Str → Str → Bool) (global template : Dict Str TblEntry) (ne : NumExpr) (s : Site n k)
    (ts : TableSite k) (w : Store (Table k)) (items : List (Written × Str × JVal)) (r : Request) (a : TableReq)
    (P : List (Written × Str × JVal) → Prop) (res : Result k) : Prop :=
  (runIn le ne s ts w (argv items)).1 = res ∧
  ∀ (items' : List (Written × Str × JVal)) (a' : TableReq) (h : List (Act (Table k))), Command s items' r →
    TableAsked s ts items' a' → a'.dir = a.dir → P items' →
    (runIn le ne s ts (after le global template (runIn le ne s ts w (argv items)).2 h) (argv items')).1 = res

end Spec

namespace CommandRun

/-- the lookup of a request. -/
def tblRunOf (s : Site n k) (ts : TableSite k) (r : Request) (a : TableReq) : TblRun where
  create := a.create
  write := checkWrite ts.isDir ts.canWrite (some s.tblDir)
  userDir := if a.dir = [] then none else some a.dir
  globalDir := ts.globalDir
  source := normalizeFilename (baseName r.input)
  targetSize := k
  suffix := (tableSuffix r.mode).getD []
  gridId := ts.gridId r.input
  target := ts.target r.latMap r.lonMap

/-- the lookup of a request. -/
def qOf (s : Site n k) (ts : TableSite k) (r : Request) (a : TableReq) : Lookup k :=
  (ts.method a.parallel r.mode r.latMap r.lonMap r.input).lookup a.splits (ts.rows r.latMap) (tblRunOf s ts r a)

theorem asked_lookup (s : Site n k) (ts : TableSite k) (items : List (Spec.Written × Str × JVal)) (r : Spec.Request)
    (a : TableReq) (hcwd : s.cwd ≠ []) (hask : TableAsked s ts items a) (d : Dict Str JVal) (cmd : Str)
    (b : Option (JAggr × Bool × Bool))
    (hd : ∀ k x, Spec.LastGiven items k x → Dict.get? d k = some x)
    (ha : ∀ name : String, Spec.Absent items name → Dict.get? d name.toList = Dict.get? defaults name.toList)
    (hlast : Spec.LastGiven items "commandsFile".toList (.str cmd))
    (hread : readCommands s d = .ok (s.commands (Spec.located s.cwd cmd)))
    (hopt : ∀ o x, Spec.Chosen items (s.commands (Spec.located s.cwd cmd)).base s.tblDir s.geoDir o x →
      optValue (cliOf d) (s.commands (Spec.located s.cwd cmd)).base s.tblDir s.geoDir o = .ok x) (file : Str) :
    lookupOf s ts d (defined r (s.commands (Spec.located s.cwd cmd)) b) r.input file =
      .ok ((ts.method a.parallel r.mode r.latMap r.lonMap file).lookup a.splits (ts.rows r.latMap)
        { tblRunOf s ts r a with gridId := ts.gridId file }) := by
  obtain ⟨h1, h2⟩ := hask.file cmd hlast
  have hcmd : asText d "commandsFile" = some cmd := by
    unfold asText; rw [hd _ _ hlast]
  have hcr : asFlag d "createIntertable" = a.create := by
    unfold asFlag
    rcases hask.create with hl | ⟨hab, he⟩
    · rw [hd _ _ hl]
    · rw [ha _ hab]
      injection he with he
      rw [he]
      decide +kernel
  have hpa : asFlag d "interpolationParallel" = a.parallel := by
    unfold asFlag
    rcases hask.parallel with hl | ⟨hab, he⟩
    · rw [hd _ _ hl]
    · rw [ha _ hab]
      injection he with he
      rw [he]
      decide +kernel
  unfold lookupOf
  rw [hread, ok_bind, hcmd, hcr, hpa, hopt _ _ h1, Option.getD_some, commands_path hcwd, h2]
  rfl

/-- What the program makes of a command on its tables. -/
theorem table_core (le : Str → Str → Bool) (ne : NumExpr) (s : Site n k) (ts : TableSite k) (w : Store (Table k))
    (items : List (Spec.Written × Str × JVal)) (r : Spec.Request) (hcom : Spec.Command s items r) (a : TableReq)
    (hask : TableAsked s ts items a) (hfmt : r.format = "pcraster".toList) :
    runIn le ne s ts w (argv items) =
      pcrIn le ne w (qOf s ts r a) (qOf s ts r a) (Spec.folder r.outDir) (Spec.runOf s r).settings := by
  obtain ⟨h, hcwd, hfile, ⟨hW, hK, hI⟩, hacc⟩ := hcom
  obtain ⟨d, cmd, b, u, hp, hnoc, hd, ha, hlast, hread, hreq, hctx, hfile, hopt⟩ :=
    CommandRun.command_made s items r h hcwd hfile hW hK hacc
  have hno2 : given (asText d "inputFile2") = false := by
    rw [asText_absent (ha _ hI)]
    decide +kernel
  have hin : asText d "inputFile" = some r.input := by
    unfold asText; rw [hd _ _ hreq.input]
  have hq := asked_lookup s ts items r a hcwd hask d cmd b hd ha hlast hread hopt
  unfold runIn
  rw [hp]
  dsimp only
  rw [hnoc, if_neg (by decide), hctx]
  dsimp only
  rw [hno2, hin, Option.getD_some, hfile, hq, hq]
  dsimp only
  rw [if_pos (show (defined r (s.commands (Spec.located s.cwd cmd)) b).format = _ from congrArg JVal.str hfmt),
    if_neg (by decide)]
  rfl

/-- The same for another format. -/
theorem table_core_nc (le : Str → Str → Bool) (ne : NumExpr) (s : Site n k) (ts : TableSite k) (w : Store (Table k))
    (items : List (Spec.Written × Str × JVal)) (r : Spec.Request) (hcom : Spec.Command s items r) (a : TableReq)
    (hask : TableAsked s ts items a) (hfmt : r.format ≠ "pcraster".toList) (o : NcOut)
    (hnc : Spec.NcCommand s items r o) :
    runIn le ne s ts w (argv items) =
      ncIn le ne w (qOf s ts r a) (qOf s ts r a) (Spec.runOf s r) (decide (r.format = "netcdf".toList)) o
        (Spec.runOf s r).settings := by
  obtain ⟨h, hcwd, hfile, ⟨hW, hK, hI⟩, hacc⟩ := hcom
  obtain ⟨d, cmd, b, u, hp, hnoc, hd, ha, hlast, hread, hreq, hctx, hfile, hopt⟩ :=
    CommandRun.command_made s items r h hcwd hfile hW hK hacc
  have ho := nc_out s items r o hnc d cmd b u hlast hread hreq hopt
  have hno2 : given (asText d "inputFile2") = false := by
    rw [asText_absent (ha _ hI)]
    decide +kernel
  have hin : asText d "inputFile" = some r.input := by
    unfold asText; rw [hd _ _ hreq.input]
  have hq := asked_lookup s ts items r a hcwd hask d cmd b hd ha hlast hread hopt
  unfold runIn
  rw [hp]
  dsimp only
  rw [hnoc, if_neg (by decide), hctx]
  dsimp only
  rw [hno2, hin, Option.getD_some, hfile, hq, hq]
  dsimp only
  rw [if_neg (show ¬ (defined r (s.commands (Spec.located s.cwd cmd)) b).format = _ from
    fun h => hfmt (JVal.str.inj h)), ho]
  dsimp only
  rw [if_neg (by decide)]
  congr 1
  show decide (JVal.str r.format = _) = _
  rw [decide_eq_decide]
  exact ⟨fun h => JVal.str.inj h, fun h => congrArg _ h⟩

theorem pcr_in (le : Str → Str → Bool) (ne : NumExpr) (w : Store (Table k)) (q : Lookup k) (dir : Str)
    (x : FileIn n k) :
    pcrIn le ne w q q (Spec.folder dir) x.settings =
      (.ended (match (x.pcrasterIn le ne w q).error with
        | none => .ok 0
        | some e => failure e) ((x.pcrasterIn le ne w q).maps.map fun p => (inFolder dir p.1, p.2)),
        (x.pcrasterIn le ne w q).store) := by
  unfold pcrIn FileIn.pcrasterIn
  cases x.settings with
  | error e => dsimp only; rw [status_eq]; rfl
  | ok r =>
    dsimp only
    unfold endPcr
    simp only [join_folder]
    cases (r.pcrasterIn le ne w q q).error with
    | none => rfl
    | some e => dsimp only; rw [status_eq]

/-- the identifier that a request looks for. -/
theorem id_of {s : Site n k} {ts : TableSite k} {r : Request} {a : TableReq} (hacc : Acceptable s.fs r)
    {w : Store (Table k)} (h : NoTable w ts r) : (tblRunOf s ts r a).id ∉ Dict.keys w.conf.vars := by
  have hm : ∃ mark, (r.mode, mark) ∈ marks ∧ tableSuffix r.mode = some mark := by
    have key : ∀ mode ∈ ["grib_nearest", "grib_invdist", "nearest", "invdist", "adw", "cdd", "bilinear",
        "triangulation", "bilinear_delaunay"].map String.toList, ∃ mark, (mode, mark) ∈ marks ∧ tableSuffix mode = some mark := by
      intro mode hmode
      simp only [List.map_cons, List.map_nil, List.mem_cons, List.not_mem_nil, or_false] at hmode
      rcases hmode with rfl | rfl | rfl | rfl | rfl | rfl | rfl | rfl | rfl
      · exact ⟨"grib_nearest".toList, by unfold marks; simp, by decide +kernel⟩
      · exact ⟨"grib_invdist".toList, by unfold marks; simp, by decide +kernel⟩
      · exact ⟨"scipy_nearest".toList, by unfold marks; simp, by decide +kernel⟩
      · exact ⟨"scipy_invdist".toList, by unfold marks; simp, by decide +kernel⟩
      · exact ⟨"scipy_adw".toList, by unfold marks; simp, by decide +kernel⟩
      · exact ⟨"scipy_cdd".toList, by unfold marks; simp, by decide +kernel⟩
      · exact ⟨"scipy_bilinear".toList, by unfold marks; simp, by decide +kernel⟩
      · exact ⟨"scipy_triangulation".toList, by unfold marks; simp, by decide +kernel⟩
      · exact ⟨"scipy_bilinear_delaunay".toList, by unfold marks; simp, by decide +kernel⟩
    exact key _ hacc.mode
  obtain ⟨mark, h1, h2⟩ := hm
  have := h mark h1
  unfold TblRun.id tblRunOf
  dsimp only
  rw [h2]
  exact this

theorem may_create {s : Site n k} {ts : TableSite k} {r : Request} {a : TableReq} (hacc : Acceptable s.fs r)
    {w : Store (Table k)} (h : NoTable w ts r) (hc : CanCreate w s ts a) : MayCreate w (tblRunOf s ts r a) := by
  refine ⟨id_of hacc h, hc.asked, ?_, ⟨a.dir, ?_, hc.dir⟩, hc.files⟩
  · show checkWrite ts.isDir ts.canWrite (some s.tblDir) = .ok ()
    unfold checkWrite
    dsimp only
    rw [if_neg hc.folder.1, if_neg (by rw [hc.folder.2.1]; decide), if_neg (by rw [hc.folder.2.2]; decide)]
  · show (if a.dir = [] then none else some a.dir) = _
    rw [if_neg hc.dir]

/-- From a run to a command. -/
theorem ends_always (le : Str → Str → Bool) (global template : Dict Str TblEntry) (ne : NumExpr) (s : Site n k)
    (ts : TableSite k) (w : Store (Table k)) (items : List (Spec.Written × Str × JVal)) (r : Spec.Request)
    (hcom : Spec.Command s items r) (a : TableReq) (hask : TableAsked s ts items a)
    (hfmt : r.format = "pcraster".toList) (files : List (Str × (Fin k → Num)))
    (hrun : WritesAlways le global template ne w (qOf s ts r a) (Spec.runOf s r) files)
    (P : List (Spec.Written × Str × JVal) → Prop) :
    EndsAlways le global template ne s ts w items r a P
      (.ended (.ok 0) (files.map fun p => (inFolder r.outDir p.1, p.2))) := by
  obtain ⟨h1, h2, h3⟩ := hrun
  refine ⟨?_, fun items' a' h hcom' hask' hdir _ => ?_⟩
  · rw [table_core le ne s ts w items r hcom a hask hfmt, pcr_in, h1, h2]
  · rw [table_core le ne s ts w items r hcom a hask hfmt, pcr_in, table_core le ne s ts _ items' r hcom' a' hask' hfmt,
      pcr_in]
    obtain ⟨g1, g2⟩ := h3 (qOf s ts r a') h rfl (by
      show (if a'.dir = [] then none else some a'.dir) = if a.dir = [] then none else some a.dir
      rw [hdir])
    dsimp only
    rw [g1, g2]

end CommandRun

/-! ## C170, C171: PCRaster maps -/

/-- **C170.** A command without aggregation that creates its table (`-B`; file, options and selection as in C144): in
every cell the maps hold what the method gives for the converted field (C167), corrected for height and shown through the
clone; exit status 0. Every later command with the same request, with or without `-B`, after whatever other runs and
restarts, ends in the same way. -/
theorem command_table_plain_run (le : Str → Str → Bool) (global template : Dict Str TblEntry) (ne : NumExpr)
    (s : Site n k) (ts : TableSite k) (w : Store (Table k)) (hw : Reached le global template w)
    (items : List (Spec.Written × Str × JVal)) (r : Spec.Request) (hcom : Spec.Command s items r)
    (hfmt : r.format = "pcraster".toList) (hpre : r.namePrefix ≠ [] ∧ r.namePrefix.head? ≠ some '/')
    (a : TableReq) (hask : TableAsked s ts items a) (hnew : NoTable w ts r) (hcan : CanCreate w s ts a)
    (hrows : (ts.rows r.latMap).flatten = List.finRange k) (g : Grids n k)
    (hg : Answers a.splits (ts.rows r.latMap) (ts.method a.parallel r.mode r.latMap r.lonMap r.input) g)
    (f : Num → Num) (mv : ℚ) (file : List (GMsg (Arr n))) (hfile : s.grib r.input = (file, true))
    (hup : r.shortName.map Char.toUpper ≠ r.shortName) (hagg : r.aggr = none)
    (p : SelPar) (hp : p = ⟨r.shortName, r.level, r.dataTime, r.dataDate, r.member⟩)
    (E : Int) (hE : Spec.LastStep file p E) (sel : List (GMsg (Arr n)))
    (hsel : sel = Spec.taken file p (r.tstart.getD 0) (Spec.windowEnd r.tend E)) (hne : sel ≠ [])
    (nj : Int) (hnj : ∀ m ∈ sel, m.nj = nj) (hdiff : sel.Pairwise Spec.Differ)
    (hmv : ∀ m ∈ sel, m.missingValue = .fin mv) (hdate : ∀ m ∈ sel, (Spec.reference m).isSome = true)
    (hconv : Means ne (r.conversion.map fun c => some c.1) f) :
    ∃ (R : Arr n → Fin k → Num) (ord : List (GMsg (Arr n))) (files : List (Str × (Fin k → Num))),
      Gives (s.mvOf r.latMap) R g ∧ ord.Perm sel ∧ ord.Pairwise (fun a b => a.endStep ≤ b.endStep) ∧
      EndsAlways le global template ne s ts w items r a (fun _ => True) (.ended (.ok 0) files) ∧
      files.length = ord.length ∧
      ∀ (j : Nat) m, ord[j]? = some m →
        files[j]? = some (Spec.folder r.outDir ++ pcrName r.namePrefix r.fmap r.ext (j + 1), fun c =>
          shown (s.clone r.clone).1 (s.clone r.clone).2
            (finalCell (r.correction.map fun q => (s.heights q.1 q.2.1 q.2.2).1)
              (R (Spec.cutField ((r.conversion.map Prod.snd).getD false) (convertedField mv f m.values)) c) c) c) := by
  subst hp
  have e1 : (Spec.runOf s r).file = file := congrArg Prod.fst hfile
  have e2 : (Spec.runOf s r).indexable = true := congrArg Prod.snd hfile
  obtain ⟨R, ord, files, h0, h1, h2, h3, h4, h5⟩ := table_plain_run le global template w hw a.splits (ts.rows r.latMap)
    hrows _ g hg (tblRunOf s ts r a) (may_create hcom.acceptable hnew hcan) ne (Spec.runOf s r) f mv e2 hup hagg E
    (by rw [e1]; exact hE) sel (by rw [e1]; exact hsel) hne nj hnj hdiff hmv hdate hconv
  refine ⟨R, ord, files.map fun p => (Spec.inFolder r.outDir p.1, p.2), h0, h1, h2,
    ends_always le global template ne s ts w items r hcom a hask hfmt files h3 _, ?_, ?_⟩
  · rw [List.length_map]; exact h4
  · intro j m hj
    rw [List.getElem?_map, h5 j m hj, CommandRun.cut_of]
    show some (Spec.inFolder r.outDir (pcrName r.namePrefix r.fmap r.ext (j + 1)), _) = _
    rw [CommandRun.map_place _ _ _ _ _ hpre.1 hpre.2]
    rfl

/-- **C171**, accumulation: the same for a command whose command file asks for accumulation over `h` hours (C145,
C168). -/
theorem command_table_accumulation_run (le : Str → Str → Bool) (global template : Dict Str TblEntry) (ne : NumExpr)
    (s : Site n k) (ts : TableSite k) (w : Store (Table k)) (hw : Reached le global template w)
    (items : List (Spec.Written × Str × JVal)) (r : Spec.Request) (hcom : Spec.Command s items r)
    (hfmt : r.format = "pcraster".toList) (hpre : r.namePrefix ≠ [] ∧ r.namePrefix.head? ≠ some '/')
    (a : TableReq) (hask : TableAsked s ts items a) (hnew : NoTable w ts r) (hcan : CanCreate w s ts a)
    (hrows : (ts.rows r.latMap).flatten = List.finRange k) (g : Grids n k)
    (hg : Answers a.splits (ts.rows r.latMap) (ts.method a.parallel r.mode r.latMap r.lonMap r.input) g)
    (f : Num → Num) (mv : ℚ) (file : List (GMsg (Arr n))) (hfile : s.grib r.input = (file, true))
    (hup : r.shortName.map Char.toUpper ≠ r.shortName) (h : Int) (half forced : Bool)
    (hagg : r.aggr = some ⟨h, "accumulation", half, forced⟩) (hpos : 0 < h)
    (p : SelPar) (hp : p = ⟨r.shortName, r.level, r.dataTime, r.dataDate, r.member⟩)
    (E : Int) (hE : Spec.LastStep file p E) (hreg : Spec.StepsDiffer file p) (start hi : Int)
    (hst : start = r.tstart.getD 0) (hhi : hi = Spec.windowEnd r.tend E) (sel : List (GMsg (Arr n)))
    (hsel : sel = Spec.taken file p (max 0 (start - h)) hi) (hne : sel ≠ [])
    (nj : Int) (hnj : ∀ m ∈ sel, m.nj = nj) (hdiff : (sel.map GMsg.endStep).Nodup)
    (hmv : ∀ m ∈ sel, m.missingValue = .fin mv) (hdate : ∀ m ∈ sel, (Spec.reference m).isSome = true)
    (hconv : Means ne (r.conversion.map fun c => some c.1) f)
    (hcur : ∀ u, Spec.InRange (Spec.firstEnd start h) hi h u →
      (∃ m ∈ sel, m.endStep = u) ∧ (u - h = 0 ∨ ∃ m ∈ sel, m.endStep = u - h)) :
    ∃ (R : Arr n → Fin k → Num) (files : List (Str × (Fin k → Num))), Gives (s.mvOf r.latMap) R g ∧
      EndsAlways le global template ne s ts w items r a (fun _ => True) (.ended (.ok 0) files) ∧
      (∀ j : Nat, j < files.length ↔ Spec.firstEnd start h + j * h ≤ hi) ∧
      ∀ (j : Nat) u, u = Spec.firstEnd start h + j * h → u ≤ hi →
        ∃ (mc : GMsg (Arr n)) (vp D : Arr n), mc ∈ sel ∧ mc.endStep = u ∧
          (if u = h ∧ (forced = true ∨ ∀ m ∈ sel, m.endStep ≠ 0) then
            (∀ i, vp.data i = 0 ∧ vp.masked i = false)
           else ∃ mp ∈ sel, mp.endStep = u - h ∧ vp = convertedField mv f mp.values) ∧
          (∀ i, D.data i = ((convertedField mv f mc.values).data i - vp.data i) * Num.ofInt r.unitTime / Num.ofInt h ∧
            D.masked i = vp.masked i) ∧
          files[j]? = some (Spec.folder r.outDir ++ pcrName r.namePrefix r.fmap r.ext (j + 1), fun c =>
            shown (s.clone r.clone).1 (s.clone r.clone).2
              (finalCell (r.correction.map fun q => (s.heights q.1 q.2.1 q.2.2).1)
                (R (Spec.cutField ((r.conversion.map Prod.snd).getD false) D) c) c) c) := by
  subst hp
  have e1 : (Spec.runOf s r).file = file := congrArg Prod.fst hfile
  have e2 : (Spec.runOf s r).indexable = true := congrArg Prod.snd hfile
  obtain ⟨R, files, h0, h3, h4, h5⟩ := table_accumulation_run le global template w hw a.splits (ts.rows r.latMap)
    hrows _ g hg (tblRunOf s ts r a) (may_create hcom.acceptable hnew hcan) ne (Spec.runOf s r) f mv e2 hup _ hagg rfl h
    rfl hpos E (by rw [e1]; exact hE) (by rw [e1]; exact hreg) start hi hst hhi sel (by rw [e1]; exact hsel) hne nj hnj
    hdiff hmv hdate hconv hcur
  refine ⟨R, files.map fun p => (Spec.inFolder r.outDir p.1, p.2), h0,
    ends_always le global template ne s ts w items r hcom a hask hfmt files h3 _, ?_, ?_⟩
  · intro j
    rw [List.length_map]; exact h4 j
  · intro j u hu hle
    obtain ⟨mc, vp, D, g1, g2, g3, g4, g5⟩ := h5 j u hu hle
    refine ⟨mc, vp, D, g1, g2, g3, g4, ?_⟩
    rw [List.getElem?_map, g5, CommandRun.cut_of]
    show some (Spec.inFolder r.outDir (pcrName r.namePrefix r.fmap r.ext (j + 1)), _) = _
    rw [CommandRun.map_place _ _ _ _ _ hpre.1 hpre.2]
    rfl

/-- **C171**, average (C145, C168). -/
theorem command_table_average_run (le : Str → Str → Bool) (global template : Dict Str TblEntry) (ne : NumExpr)
    (s : Site n k) (ts : TableSite k) (w : Store (Table k)) (hw : Reached le global template w)
    (items : List (Spec.Written × Str × JVal)) (r : Spec.Request) (hcom : Spec.Command s items r)
    (hfmt : r.format = "pcraster".toList) (hpre : r.namePrefix ≠ [] ∧ r.namePrefix.head? ≠ some '/')
    (a : TableReq) (hask : TableAsked s ts items a) (hnew : NoTable w ts r) (hcan : CanCreate w s ts a)
    (hrows : (ts.rows r.latMap).flatten = List.finRange k) (g : Grids n k)
    (hg : Answers a.splits (ts.rows r.latMap) (ts.method a.parallel r.mode r.latMap r.lonMap r.input) g)
    (f : Num → Num) (mv : ℚ) (file : List (GMsg (Arr n))) (hfile : s.grib r.input = (file, true))
    (hup : r.shortName.map Char.toUpper ≠ r.shortName) (h : Int) (forced : Bool)
    (hagg : r.aggr = some ⟨h, "average", false, forced⟩) (hpos : 0 < h)
    (p : SelPar) (hp : p = ⟨r.shortName, r.level, r.dataTime, r.dataDate, r.member⟩)
    (hinst : ∀ m ∈ file, Spec.named p m = true → m.stepType ≠ "accum".toList)
    (E : Int) (hE : Spec.LastStep file p E) (hreg : Spec.StepsDiffer file p) (start hi : Int)
    (hst : r.tstart = some start) (h0 : start ≠ 0) (hhi : hi = Spec.windowEnd r.tend E) (sel : List (GMsg (Arr n)))
    (hsel : sel = Spec.taken file p (max 0 (start - h)) hi)
    (nj : Int) (hnj : ∀ m ∈ sel, m.nj = nj) (hdiff : (sel.map GMsg.endStep).Nodup)
    (hmv : ∀ m ∈ sel, m.missingValue = .fin mv) (hdate : ∀ m ∈ sel, (Spec.reference m).isSome = true)
    (hconv : Means ne (r.conversion.map fun c => some c.1) f) (hex : ∃ m ∈ sel, hi ≤ m.endStep) :
    ∃ (R : Arr n → Fin k → Num) (files : List (Str × (Fin k → Num))), Gives (s.mvOf r.latMap) R g ∧
      EndsAlways le global template ne s ts w items r a (fun _ => True) (.ended (.ok 0) files) ∧
      (∀ j : Nat, j < files.length ↔ start + j * h ≤ hi) ∧
      ∀ (j : Nat) u, u = start + j * h → u ≤ hi →
        ∃ (F : Int → GMsg (Arr n)) (D : Arr n),
          (∀ y, u - h < y → y ≤ u → F y ∈ sel ∧ y ≤ (F y).endStep ∧
            ∀ m ∈ sel, y ≤ m.endStep → (F y).endStep ≤ m.endStep) ∧
          (∀ i, D.data i = ((List.range h.toNat).map fun (y : Nat) =>
              (convertedField mv f (F (u - h + 1 + (y : Int))).values).data i).sum / Num.ofInt h ∧
            D.masked i = false) ∧
          files[j]? = some (Spec.folder r.outDir ++ pcrName r.namePrefix r.fmap r.ext (j + 1), fun c =>
            shown (s.clone r.clone).1 (s.clone r.clone).2
              (finalCell (r.correction.map fun q => (s.heights q.1 q.2.1 q.2.2).1)
                (R (Spec.cutField ((r.conversion.map Prod.snd).getD false) D) c) c) c) := by
  subst hp
  have e1 : (Spec.runOf s r).file = file := congrArg Prod.fst hfile
  have e2 : (Spec.runOf s r).indexable = true := congrArg Prod.snd hfile
  obtain ⟨R, files, g0, h3, h4, h5⟩ := table_average_run le global template w hw a.splits (ts.rows r.latMap)
    hrows _ g hg (tblRunOf s ts r a) (may_create hcom.acceptable hnew hcan) ne (Spec.runOf s r) f mv e2 hup _ hagg
    rfl rfl h rfl hpos
    (by
      rw [e1]
      intro m hm hn hc
      exact hinst m hm hn (by rw [← hc, String.toList_ofList]))
    E (by rw [e1]; exact hE) (by rw [e1]; exact hreg) start hi
    (show start = r.tstart.getD 0 by rw [hst]; rfl) h0 hhi sel (by rw [e1]; exact hsel) nj hnj hdiff hmv hdate hconv hex
  refine ⟨R, files.map fun p => (Spec.inFolder r.outDir p.1, p.2), g0,
    ends_always le global template ne s ts w items r hcom a hask hfmt files h3 _, ?_, ?_⟩
  · intro j
    rw [List.length_map]; exact h4 j
  · intro j u hu hle
    obtain ⟨F, D, g1, g2, g5⟩ := h5 j u hu hle
    refine ⟨F, D, g1, g2, ?_⟩
    rw [List.getElem?_map, g5, CommandRun.cut_of]
    show some (Spec.inFolder r.outDir (pcrName r.namePrefix r.fmap r.ext (j + 1)), _) = _
    rw [CommandRun.map_place _ _ _ _ _ hpre.1 hpre.2]
    rfl

/-! ## C172: netCDF data sets -/

namespace Spec

/-- The site with table `t` in the place of what was known before. -/
def withTable (s : Site n k) (t : Table k) : Site n k := { s with tables := fun _ _ _ _ => (t, t) }

end Spec

namespace CommandRun

theorem with_table {s : Site n k} {items : List (Spec.Written × Str × JVal)} {r : Spec.Request}
    (h : Spec.Command s items r) (t : Table k) : Spec.Command (withTable s t) items r := by
  obtain ⟨h1, h2, ⟨cmd, h3, h4, h5⟩, h6, h7⟩ := h
  exact ⟨h1, h2, ⟨cmd, h3, h4, { h5 with }⟩, h6, h7⟩

theorem with_table_nc {s : Site n k} {items : List (Spec.Written × Str × JVal)} {r : Spec.Request} {o : NcOut}
    (h : Spec.NcCommand s items r o) (t : Table k) : Spec.NcCommand (withTable s t) items r o :=
  fun cmd hc => { h cmd hc with }

/-- The maps with known tables. -/
theorem maps_pure {m : Nat} (ne : NumExpr) (r : RunIn n m k) (t : Table k) (values : Dict Step (Field n m))
    (change : Option Step) (h : r.fields ne = .ok (values, change)) :
    ({ r with table := t, table2 := t } : RunIn n m k).maps ne =
      pureMaps r t t (fun x a => (x, a)) ((gridLoop change false values).map fun p => (p.1.endStep, p.2.1, p.2.2)) := by
  have h' : ({ r with table := t, table2 := t } : RunIn n m k).fields ne = .ok (values, change) := h
  unfold RunIn.maps pureMaps writeNetcdf
  rw [h']
  dsimp only
  generalize gridLoop change false values = l
  induction l with
  | nil => rfl
  | cons p l ih =>
    rw [List.map_cons, List.map_cons, List.mapM_cons, List.mapM_cons, ih, renderBy_eq]

/-- What a data set that was stored tells about the run. -/
theorem stored_parts (ne : NumExpr) (x : FileIn n k) (t : Table k) (o : NcOut) (set : Dataset k)
    (hrun : netcdfRun ne { x with table := t, table2 := t } true o = .stored set) :
    ∃ (info : Reader.StepsInfo) (r : RunIn n n k) (ms : List (Int × Arr k)) (m0 : GMsg (Arr n)),
      (Reader.gribInfo x.file x.reader (infoCmd x.sel)).1 = .ok info ∧ x.settings = .ok r ∧
      ({ r with table := t, table2 := t } : RunIn n n k).maps ne = .ok ms ∧ x.firstSelected = some m0 ∧
      x.record o r m0 ms = .ok (some set) := by
  unfold netcdfRun at hrun
  rw [settings_table] at hrun
  have hg : Reader.gribInfo ({ x with table := t, table2 := t } : FileIn n k).file
      ({ x with table := t, table2 := t } : FileIn n k).reader
      (infoCmd ({ x with table := t, table2 := t } : FileIn n k).sel) =
      Reader.gribInfo x.file x.reader (infoCmd x.sel) := rfl
  have hf : ({ x with table := t, table2 := t } : FileIn n k).firstSelected = x.firstSelected := rfl
  rw [hg, hf] at hrun
  cases hi : (Reader.gribInfo x.file x.reader (infoCmd x.sel)).1 with
  | error e => rw [hi] at hrun; cases hrun
  | ok info =>
    rw [hi] at hrun
    dsimp only at hrun
    cases hs : x.settings with
    | error e => rw [hs] at hrun; cases hrun
    | ok r =>
      rw [hs] at hrun
      change (match ({ r with table := t, table2 := t } : RunIn n n k).maps ne, x.firstSelected, true with
        | .ok ms, some m0, true => _
        | _, _, _ => _) = _ at hrun
      cases hm : ({ r with table := t, table2 := t } : RunIn n n k).maps ne with
      | error e => rw [hm] at hrun; cases hrun
      | ok ms =>
        rw [hm] at hrun
        cases h0 : x.firstSelected with
        | none => rw [h0] at hrun; cases hrun
        | some m0 =>
          rw [h0] at hrun
          dsimp only at hrun
          have hr : ({ x with table := t, table2 := t } : FileIn n k).record o
            ({ r with table := t, table2 := t } : RunIn n n k) m0 ms = x.record o r m0 ms := rfl
          rw [hr] at hrun
          refine ⟨info, r, ms, m0, rfl, rfl, hm, rfl, ?_⟩
          cases hrec : x.record o r m0 ms with
          | error e => rw [hrec] at hrun; cases hrun
          | ok c =>
            rw [hrec] at hrun
            cases c with
            | none => cases hrun
            | some y =>
              injection hrun with hrun
              rw [hrun]

/-- A data set is stored once its maps are made. -/
theorem nc_stored (le : Str → Str → Bool) (ne : NumExpr) (w : Store (Table k)) (q : Lookup k) (x : FileIn n k)
    (o : NcOut) (set : Dataset k) (info : Reader.StepsInfo) (r : RunIn n n k) (m0 : GMsg (Arr n))
    (hi : (Reader.gribInfo x.file x.reader (infoCmd x.sel)).1 = .ok info) (hs : x.settings = .ok r)
    (h0 : x.firstSelected = some m0) (ms : List (Int × Arr k)) (hm : (r.mapsIn le ne w q q).maps = ms)
    (he : (r.mapsIn le ne w q q).error = none) (hrec : x.record o r m0 ms = .ok (some set)) :
    ncIn le ne w q q x true o x.settings = (.stored set, (r.mapsIn le ne w q q).store) := by
  unfold ncIn
  rw [hi, hs]
  dsimp only
  rw [he, h0]
  dsimp only
  rw [hm, hrec]

/-- A run with netCDF output that creates its table, and later runs. -/
theorem nc_new (le : Str → Str → Bool) (global template : Dict Str TblEntry) (w : Store (Table k))
    (hw : Reached le global template w) (ne : NumExpr) (x : FileIn n k) (q : Lookup k) (hnew : MayCreate w q.run)
    (t : Table k) (hb : q.build = .ok t) (o : NcOut) (set : Dataset k)
    (hrun : netcdfRun ne { x with table := t, table2 := t } true o = .stored set) :
    (ncIn le ne w q q x true o x.settings).1 = .stored set ∧
    ∀ (q' : Lookup k) (h : List (Act (Table k))), q'.run.id = q.run.id → q'.run.userDir = q.run.userDir →
      (ncIn le ne (after le global template (ncIn le ne w q q x true o x.settings).2 h) q' q' x true o
        x.settings).1 = .stored set := by
  obtain ⟨info, r, ms, m0, hi, hset, hm, h0, hrec⟩ := stored_parts ne x t o set hrun
  obtain ⟨hlook, hown⟩ := table_new le w q hnew t hb
  have hs := hw.sound
  cases hf : r.fields ne with
  | error e =>
    have hf' : ({ r with table := t, table2 := t } : RunIn n n k).fields ne = .error e := hf
    unfold RunIn.maps at hm
    rw [hf'] at hm
    cases hm
  | ok vc =>
    obtain ⟨values, change⟩ := vc
    rw [maps_pure ne r t values change hf] at hm
    have hIn : ∀ w q, r.mapsIn le ne w q q = r.mapLoop le q q (fun x a => (x, a)) w
        ((gridLoop change false values).map fun p => (p.1.endStep, p.2.1, p.2.2)) := by
      intro w q
      unfold RunIn.mapsIn
      rw [hf]
    obtain ⟨f1, f2, fd⟩ := first_loop le r (fun (x : Int) a => (x, a)) q w hs t hlook hown _ _ hm
    rw [← hIn] at f1 f2 fd
    have hfirst := nc_stored le ne w q x o set info r m0 hi hset h0 ms f1 f2 hrec
    rw [hfirst]
    refine ⟨rfl, fun q' h hid hdir => ?_⟩
    obtain ⟨hg, ht, hu, -⟩ := hw
    have hs' := sound_after le global template hg ht hu fd.sound h
    obtain ⟨-, i2, -⟩ := loop_settled le r (fun (x : Int) a => (x, a)) q' q' t t _ _ hs'
      (fun e he hb => settled_after le global template hg ht fd.sound (fd.first e he hb) hid hdir h)
      (fun e he hb => settled_after le global template hg ht fd.sound (fd.second e he hb) hid hdir h)
    obtain ⟨j1, j2⟩ := i2 _ hm
    rw [← hIn] at j1 j2
    rw [nc_stored le ne _ q' x o set info r m0 hi hset h0 ms j1 j2 hrec]

/-- From a command on a known table to a command that creates it. -/
theorem nc_always (le : Str → Str → Bool) (global template : Dict Str TblEntry) (ne : NumExpr) (s : Site n k)
    (ts : TableSite k) (w : Store (Table k)) (hw : Reached le global template w)
    (items : List (Spec.Written × Str × JVal)) (r : Spec.Request) (hcom : Spec.Command s items r)
    (hfmt : r.format = "netcdf".toList) (a : TableReq) (hask : TableAsked s ts items a) (hnew : NoTable w ts r)
    (hcan : CanCreate w s ts a) (t : Table k) (hb : (qOf s ts r a).build = .ok t) (o : NcOut)
    (hnc : Spec.NcCommand s items r o) (set : Dataset k)
    (hrun : CommandRun.run ne (withTable s t) (argv items) = .stored set) :
    EndsAlways le global template ne s ts w items r a (fun items' => NcCommand s items' r o) (.stored set) := by
  have hf : r.format ≠ "pcraster".toList := by rw [hfmt]; decide
  rw [netcdf_core ne (withTable s t) items r (with_table hcom t) hf o (with_table_nc hnc t), decide_eq_true hfmt]
    at hrun
  obtain ⟨h1, h2⟩ := nc_new le global template w hw ne (Spec.runOf s r) (qOf s ts r a)
    (may_create hcom.acceptable hnew hcan) t hb o set hrun
  refine ⟨?_, fun items' a' h hcom' hask' hdir hnc' => ?_⟩
  · rw [table_core_nc le ne s ts w items r hcom a hask hf o hnc, decide_eq_true hfmt]
    exact h1
  · rw [table_core_nc le ne s ts w items r hcom a hask hf o hnc,
      table_core_nc le ne s ts _ items' r hcom' a' hask' hf o hnc', decide_eq_true hfmt]
    refine h2 (qOf s ts r a') h rfl ?_
    show (if a'.dir = [] then none else some a'.dir) = if a.dir = [] then none else some a.dir
    rw [hdir]

end CommandRun

/-! ## The data sets -/

/-- **C172.** A command without aggregation with netCDF output that creates its table (C152, C170): the data set shows in
every cell what the method gives for the converted field, and every later command with the same request stores the same
data set. -/
theorem command_table_netcdf_plain_run (le : Str → Str → Bool) (global template : Dict Str TblEntry) (ne : NumExpr)
    (s : Site n k) (ts : TableSite k) (w : Store (Table k)) (hw : Reached le global template w)
    (items : List (Spec.Written × Str × JVal)) (r : Spec.Request) (hcom : Spec.Command s items r) (hfmt : r.format = "netcdf".toList) (o : NcOut)
    (hnc : Spec.NcCommand s items r o) {fmt : ValueFormat} {scale offset : ℚ} {lo hi : Option ℚ}
    (ho : NcMeans o fmt scale offset lo hi) (req : Option Str) (hreq : unitAsked o.stepUnits req)
    (f : Num → Num) (mv : ℚ) (file : List (GMsg (Arr n))) (hfile : s.grib r.input = (file, true))
    (hup : r.shortName.map Char.toUpper ≠ r.shortName) (hagg : r.aggr = none)
    (p : SelPar) (hp : p = ⟨r.shortName, r.level, r.dataTime, r.dataDate, r.member⟩)
    (E : Int) (hE : Spec.LastStep file p E) (sel : List (GMsg (Arr n)))
    (hsel : sel = Spec.taken file p (r.tstart.getD 0) (Spec.windowEnd r.tend E)) (hne : sel ≠ [])
    (nj : Int) (hnj : ∀ m ∈ sel, m.nj = nj) (hdiff : sel.Pairwise Spec.Differ)
    (hmv : ∀ m ∈ sel, m.missingValue = .fin mv) (ref : Int × Nat) (href : ∀ m ∈ sel, reference m = some ref)
    (u : Str) (hu : ∀ m ∈ sel, m.get? "stepUnits".toList = some (.str u)) (hk : ∃ name, (u, name) ∈ gribUnits)
    (hconv : Means ne (r.conversion.map fun c => some c.1) f)
    (b : TableReq) (hask : TableAsked s ts items b) (hnew : NoTable w ts r) (hcan : CanCreate w s ts b)
    (hrows : (ts.rows r.latMap).flatten = List.finRange k) (g : Grids n k)
    (hg : Answers b.splits (ts.rows r.latMap) (ts.method b.parallel r.mode r.latMap r.lonMap r.input) g)
    (mask : Fin k → Bool) (hmask : (s.clone r.clone).1 = some mask) :
    ∃ (R : Arr n → Fin k → Num) (ord : List (GMsg (Arr n))) (d : Dataset k), Gives (s.mvOf r.latMap) R g ∧
      ord.Perm sel ∧ ord.Pairwise (fun a b => a.endStep ≤ b.endStep) ∧
      EndsAlways le global template ne s ts w items r b (fun items' => NcCommand s items' r o) (.stored d) ∧
      Describes d o r.namePrefix ref fmt scale offset lo hi ∧ TimesIn u req (ord.map GMsg.endStep) d.time ∧
      d.records.length = ord.length ∧
      ∀ (j : Nat) m rec, ord[j]? = some m → d.records[j]? = some rec → ∀ c V,
        V = finalCell (r.correction.map fun q => (s.heights q.1 q.2.1 q.2.2).1) (R
              (Spec.cutField ((r.conversion.map Prod.snd).getD false) (convertedField mv f m.values)) c) c →
        Shows d lo hi (mask c = true ∨ V = s.mvOf r.latMap) V (rec c) := by
  obtain ⟨t, hb, hfit, hgives⟩ := method_table (s.mvOf r.latMap) b.splits (ts.rows r.latMap) hrows _ g hg
  obtain ⟨ord, d, h1, h2, h3, h4⟩ := command_netcdf_plain_run ne (withTable s t) items r (with_table hcom t) hfmt o
    (with_table_nc hnc t) ho req hreq f mv file hfile hup hagg p hp E hE sel hsel hne nj hnj hdiff hmv ref href u hu
    hk hconv t rfl hfit mask hmask
  exact ⟨_, ord, d, hgives, h1, h2,
    nc_always le global template ne s ts w hw items r hcom hfmt b hask hnew hcan t hb o hnc d h3, h4⟩

/-- **C172**, accumulation (C153, C171). -/
theorem command_table_netcdf_accumulation_run (le : Str → Str → Bool) (global template : Dict Str TblEntry)
    (ne : NumExpr) (s : Site n k) (ts : TableSite k) (w : Store (Table k)) (hw : Reached le global template w)
    (items : List (Spec.Written × Str × JVal)) (r : Spec.Request) (hcom : Spec.Command s items r) (hfmt : r.format = "netcdf".toList) (o : NcOut)
    (hnc : Spec.NcCommand s items r o) {fmt : ValueFormat} {scale offset : ℚ} {lo up : Option ℚ}
    (ho : NcMeans o fmt scale offset lo up) (req : Option Str) (hreq : unitAsked o.stepUnits req)
    (f : Num → Num) (mv : ℚ) (file : List (GMsg (Arr n))) (hfile : s.grib r.input = (file, true))
    (hup : r.shortName.map Char.toUpper ≠ r.shortName) (a : Int) (half forced : Bool)
    (hagg : r.aggr = some ⟨a, "accumulation", half, forced⟩) (hpos : 0 < a)
    (p : SelPar) (hp : p = ⟨r.shortName, r.level, r.dataTime, r.dataDate, r.member⟩)
    (E : Int) (hE : Spec.LastStep file p E) (hreg : Spec.StepsDiffer file p) (start hi : Int)
    (hst : start = r.tstart.getD 0) (hhi : hi = Spec.windowEnd r.tend E) (sel : List (GMsg (Arr n)))
    (hsel : sel = Spec.taken file p (max 0 (start - a)) hi) (hne : sel ≠ [])
    (nj : Int) (hnj : ∀ m ∈ sel, m.nj = nj) (hdiff : (sel.map GMsg.endStep).Nodup)
    (hmv : ∀ m ∈ sel, m.missingValue = .fin mv) (ref : Int × Nat) (href : ∀ m ∈ sel, reference m = some ref)
    (u : Str) (hu : ∀ m ∈ sel, m.get? "stepUnits".toList = some (.str u)) (hk : ∃ name, (u, name) ∈ gribUnits)
    (hconv : Means ne (r.conversion.map fun c => some c.1) f)
    (b : TableReq) (hask : TableAsked s ts items b) (hnew : NoTable w ts r) (hcan : CanCreate w s ts b)
    (hrows : (ts.rows r.latMap).flatten = List.finRange k) (g : Grids n k)
    (hg : Answers b.splits (ts.rows r.latMap) (ts.method b.parallel r.mode r.latMap r.lonMap r.input) g)
    (hcur : ∀ u, Spec.InRange (Spec.firstEnd start a) hi a u →
      (∃ m ∈ sel, m.endStep = u) ∧ (u - a = 0 ∨ ∃ m ∈ sel, m.endStep = u - a))
    (hsome : firstEnd start a ≤ hi) (mask : Fin k → Bool) (hmask : (s.clone r.clone).1 = some mask) :
    ∃ (R : Arr n → Fin k → Num) (d : Dataset k) (times : List Int), Gives (s.mvOf r.latMap) R g ∧
      EndsAlways le global template ne s ts w items r b (fun items' => NcCommand s items' r o) (.stored d) ∧
      Describes d o r.namePrefix ref fmt scale offset lo up ∧ TimesIn u req times d.time ∧
      (∀ (j : Nat) t, times[j]? = some t ↔ t = firstEnd start a + j * a ∧ t ≤ hi) ∧
      d.records.length = times.length ∧
      ∀ (j : Nat) w rec, times[j]? = some w → d.records[j]? = some rec →
        ∃ (mc : GMsg (Arr n)) (vp D : Arr n), mc ∈ sel ∧ mc.endStep = w ∧
          (if w = a ∧ (forced = true ∨ ∀ m ∈ sel, m.endStep ≠ 0) then
            (∀ i, vp.data i = 0 ∧ vp.masked i = false)
           else ∃ mp ∈ sel, mp.endStep = w - a ∧ vp = convertedField mv f mp.values) ∧
          (∀ i, D.data i = ((convertedField mv f mc.values).data i - vp.data i) * Num.ofInt r.unitTime / Num.ofInt a ∧
            D.masked i = vp.masked i) ∧
          ∀ c V, V = finalCell (r.correction.map fun q => (s.heights q.1 q.2.1 q.2.2).1) (R
              (Spec.cutField ((r.conversion.map Prod.snd).getD false) D) c) c →
            Shows d lo up (mask c = true ∨ V = s.mvOf r.latMap) V (rec c) := by
  obtain ⟨t, hb, hfit, hgives⟩ := method_table (s.mvOf r.latMap) b.splits (ts.rows r.latMap) hrows _ g hg
  obtain ⟨d, times, h3, h4⟩ := command_netcdf_accumulation_run ne (withTable s t) items r (with_table hcom t) hfmt o
    (with_table_nc hnc t) ho req hreq f mv file hfile hup a half forced hagg hpos p hp E hE hreg start hi hst hhi sel
    hsel hne nj hnj hdiff hmv ref href u hu hk hconv t rfl hfit hcur hsome mask hmask
  exact ⟨_, d, times, hgives,
    nc_always le global template ne s ts w hw items r hcom hfmt b hask hnew hcan t hb o hnc d h3, h4⟩

/-- **C172**, average (C153, C171). -/
theorem command_table_netcdf_average_run (le : Str → Str → Bool) (global template : Dict Str TblEntry) (ne : NumExpr)
    (s : Site n k) (ts : TableSite k) (w : Store (Table k)) (hw : Reached le global template w)
    (items : List (Spec.Written × Str × JVal)) (r : Spec.Request) (hcom : Spec.Command s items r) (hfmt : r.format = "netcdf".toList) (o : NcOut)
    (hnc : Spec.NcCommand s items r o) {fmt : ValueFormat} {scale offset : ℚ} {lo up : Option ℚ}
    (ho : NcMeans o fmt scale offset lo up) (req : Option Str) (hreq : unitAsked o.stepUnits req)
    (f : Num → Num) (mv : ℚ) (file : List (GMsg (Arr n))) (hfile : s.grib r.input = (file, true))
    (hup : r.shortName.map Char.toUpper ≠ r.shortName) (a : Int) (forced : Bool)
    (hagg : r.aggr = some ⟨a, "average", false, forced⟩) (hpos : 0 < a)
    (p : SelPar) (hp : p = ⟨r.shortName, r.level, r.dataTime, r.dataDate, r.member⟩)
    (hinst : ∀ m ∈ file, named p m = true → String.ofList m.stepType ≠ "accum")
    (E : Int) (hE : Spec.LastStep file p E) (hreg : Spec.StepsDiffer file p) (start hi : Int)
    (hst : start = r.tstart.getD 0) (h0 : start ≠ 0) (hhi : hi = Spec.windowEnd r.tend E) (sel : List (GMsg (Arr n)))
    (hsel : sel = Spec.taken file p (max 0 (start - a)) hi)
    (nj : Int) (hnj : ∀ m ∈ sel, m.nj = nj) (hdiff : (sel.map GMsg.endStep).Nodup)
    (hmv : ∀ m ∈ sel, m.missingValue = .fin mv) (ref : Int × Nat) (href : ∀ m ∈ sel, reference m = some ref)
    (u : Str) (hu : ∀ m ∈ sel, m.get? "stepUnits".toList = some (.str u)) (hk : ∃ name, (u, name) ∈ gribUnits)
    (hconv : Means ne (r.conversion.map fun c => some c.1) f)
    (b : TableReq) (hask : TableAsked s ts items b) (hnew : NoTable w ts r) (hcan : CanCreate w s ts b)
    (hrows : (ts.rows r.latMap).flatten = List.finRange k) (g : Grids n k)
    (hg : Answers b.splits (ts.rows r.latMap) (ts.method b.parallel r.mode r.latMap r.lonMap r.input) g)
    (hex : ∃ m ∈ sel, hi ≤ m.endStep) (hsome : start ≤ hi)
    (mask : Fin k → Bool) (hmask : (s.clone r.clone).1 = some mask) :
    ∃ (R : Arr n → Fin k → Num) (d : Dataset k) (times : List Int), Gives (s.mvOf r.latMap) R g ∧
      EndsAlways le global template ne s ts w items r b (fun items' => NcCommand s items' r o) (.stored d) ∧
      Describes d o r.namePrefix ref fmt scale offset lo up ∧ TimesIn u req times d.time ∧
      (∀ (j : Nat) t, times[j]? = some t ↔ t = start + j * a ∧ t ≤ hi) ∧
      d.records.length = times.length ∧
      ∀ (j : Nat) w rec, times[j]? = some w → d.records[j]? = some rec →
        ∃ (F : Int → GMsg (Arr n)) (D : Arr n),
          (∀ h, w - a < h → h ≤ w → F h ∈ sel ∧ h ≤ (F h).endStep ∧
            ∀ m ∈ sel, h ≤ m.endStep → (F h).endStep ≤ m.endStep) ∧
          (∀ i, D.data i = ((List.range a.toNat).map fun (y : Nat) =>
              (convertedField mv f (F (w - a + 1 + (y : Int))).values).data i).sum / Num.ofInt a ∧
            D.masked i = false) ∧
          ∀ c V, V = finalCell (r.correction.map fun q => (s.heights q.1 q.2.1 q.2.2).1) (R
              (Spec.cutField ((r.conversion.map Prod.snd).getD false) D) c) c →
            Shows d lo up (mask c = true ∨ V = s.mvOf r.latMap) V (rec c) := by
  obtain ⟨t, hb, hfit, hgives⟩ := method_table (s.mvOf r.latMap) b.splits (ts.rows r.latMap) hrows _ g hg
  obtain ⟨d, times, h3, h4⟩ := command_netcdf_average_run ne (withTable s t) items r (with_table hcom t) hfmt o
    (with_table_nc hnc t) ho req hreq f mv file hfile hup a forced hagg hpos p hp hinst E hE hreg start hi hst h0 hhi
    sel hsel nj hnj hdiff hmv ref href u hu hk hconv t rfl hfit hex hsome mask hmask
  exact ⟨_, d, times, hgives,
    nc_always le global template ne s ts w hw items r hcom hfmt b hask hnew hcan t hb o hnc d h3, h4⟩

/-! ## C173: no table -/

namespace Spec

/-- No table can be created: it is not asked for, or the folder of the configuration is not set, is missing or cannot be
written. -/
def CannotCreate (s : Site n k) (ts : TableSite k) (a : TableReq) : Prop :=
  a.create = false ∨ s.tblDir = [] ∨ ts.isDir s.tblDir = false ∨ ts.canWrite s.tblDir = false

/-- Methods that tell about their progress in pieces of a 250th of the cells. -/
def TellsProgress (splits : Option Nat) (method : Method k) : Prop :=
  (∃ tty nj src query, method = .nearest tty nj src query ∧ splits = none) ∨
    (∃ tty find mv cols cells, method = .gribNearest tty false find mv cols cells) ∨
    (∃ tty find mv cols cells, method = .gribInvdist tty false find mv cols cells) ∨
    ∃ tty nj src pts last cell, method = .triangulation tty nj src pts last cell ∧ splits = none ∧ 2 ≤ pts.length

end Spec

namespace CommandRun

/-- a failed lookup for a request without table. -/
theorem cannot_create {s : Site n k} {ts : TableSite k} {r : Request} {a : TableReq} (hacc : Acceptable s.fs r)
    (le : Str → Str → Bool) {w : Store (Table k)} (h : NoTable w ts r) (hc : CannotCreate s ts a) :
    ∃ c, c ≠ 3000 ∧ w.table le (qOf s ts r a) = (.error (.app c), w) := by
  obtain ⟨h1, h2⟩ := new_fails le w (qOf s ts r a) (id_of (s := s) (a := a) hacc h)
  cases hcr : a.create with
  | false => exact ⟨8100, by decide, h1 hcr⟩
  | true =>
    have hw : ∃ c, c ≠ 3000 ∧ checkWrite ts.isDir ts.canWrite (some s.tblDir) = .error (.app c) := by
      unfold checkWrite
      dsimp only
      by_cases e1 : s.tblDir = []
      · exact ⟨_, by decide, if_pos e1⟩
      by_cases e2 : ts.isDir s.tblDir = false
      · exact ⟨_, by decide, (if_neg e1).trans (if_pos e2)⟩
      by_cases e3 : ts.canWrite s.tblDir = false
      · exact ⟨_, by decide, ((if_neg e1).trans (if_neg e2)).trans (if_pos e3)⟩
      exact absurd hc (by rintro (h | h | h | h) <;> simp_all)
    obtain ⟨c, hc3, hc⟩ := hw
    exact ⟨c, hc3, h2 _ hcr hc⟩

/-- a lookup whose table cannot be computed. -/
theorem small_target {s : Site n k} {ts : TableSite k} {r : Request} {a : TableReq} (hacc : Acceptable s.fs r)
    (le : Str → Str → Bool) {w : Store (Table k)} (h : NoTable w ts r) (hcan : CanCreate w s ts a)
    (hrows : (ts.rows r.latMap).flatten = List.finRange k) (h0 : 0 < k) (hk : k < 250)
    (hm : TellsProgress a.splits (ts.method a.parallel r.mode r.latMap r.lonMap r.input)) :
    w.table le (qOf s ts r a) = (.error .zeroDivision, w) := by
  refine build_fails le w (qOf s ts r a) (may_create hacc h hcan) _ ?_
  show (ts.method a.parallel r.mode r.latMap r.lonMap r.input).build a.splits (ts.rows r.latMap) = _
  rcases hm with ⟨tty, nj, src, query, e, e'⟩ | ⟨tty, find, mv, cols, cells, e⟩ | ⟨tty, find, mv, cols, cells, e⟩ |
    ⟨tty, nj, src, pts, last, cell, e, e', h2⟩
  · rw [e, e']; exact small_nearest hrows tty nj src query h0 hk
  · rw [e]; exact (small_grib tty mv cols cells _ _ h0 hk).1 find
  · rw [e]; exact (small_grib tty mv cols cells _ _ h0 hk).2 find
  · rw [e, e']; exact small_tri hrows tty nj src pts last cell h2 h0 hk

/-- a command whose first lookup fails. -/
theorem pcr_fails (le : Str → Str → Bool) (ne : NumExpr) (s : Site n k) (ts : TableSite k) (w : Store (Table k))
    (items : List (Spec.Written × Str × JVal)) (r : Spec.Request) (hcom : Spec.Command s items r)
    (hfmt : r.format = "pcraster".toList) (a : TableReq) (hask : TableAsked s ts items a) (t : Table k)
    (files : List (Str × (Fin k → Num)))
    (hrun : CommandRun.run ne (withTable s t) (argv items) = .ended (.ok 0) files) (hne : files ≠ []) (e : PyErr)
    (hl : w.table le (qOf s ts r a) = (.error e, w)) :
    runIn le ne s ts w (argv items) = (.ended (failure e) [], w) := by
  rw [command_settings ne (withTable s t) items r (with_table hcom t) hfmt] at hrun
  cases hp : (Spec.runOf (withTable s t) r).pcraster ne with
  | error e =>
    rw [hp] at hrun
    injection hrun with _ hrun
    exact absurd hrun.symm hne
  | ok fs =>
    rw [hp] at hrun
    injection hrun with _ hrun
    have hfs : fs ≠ [] := by
      rintro rfl
      exact hne hrun.symm
    rw [table_core le ne s ts w items r hcom a hask hfmt, pcr_in,
      failed_lookup le ne (Spec.runOf s r) w w (qOf s ts r a) t fs hp hfs e hl]
    rfl

/-- without maps there are no records. -/
theorem record_empty (x : FileIn n k) (o : NcOut) (r : RunIn n n k) (m0 : GMsg (Arr n)) (set : Dataset k)
    (h : x.record o r m0 [] = .ok (some set)) : set.records = [] := by
  unfold FileIn.record at h
  cases h1 : timeAxis m0.stepUnit (NcOut.requested o.stepUnits) (([] : List (Int × Arr k)).map (·.1)) with
  | error e => rw [h1] at h; cases h
  | ok time =>
    rw [h1] at h
    cases h2 : NcOut.format o.valueFormat with
    | error e => rw [h2] at h; cases h
    | ok f =>
      rw [h2] at h
      cases f with
      | none => cases h
      | some fmt =>
        dsimp only at h
        rw [bind_ok_iff] at h; obtain ⟨scale, -, h⟩ := h
        rw [bind_ok_iff] at h; obtain ⟨offset, -, h⟩ := h
        rw [bind_ok_iff] at h; obtain ⟨vmin, -, h⟩ := h
        rw [bind_ok_iff] at h; obtain ⟨vmax, -, h⟩ := h
        rw [bind_ok_iff] at h; obtain ⟨since, -, h⟩ := h
        rw [bind_ok_iff] at h; obtain ⟨recs, hr, h⟩ := h
        have : recs = [] := by
          unfold RunIn.store at hr
          split at hr
          · cases hr
          · exact (Except.ok.inj hr).symm
        subst this
        rw [← Option.some.inj (Except.ok.inj h)]
        rfl

/-- a command with netCDF output whose first lookup fails. -/
theorem nc_fails (le : Str → Str → Bool) (ne : NumExpr) (s : Site n k) (ts : TableSite k) (w : Store (Table k))
    (items : List (Spec.Written × Str × JVal)) (r : Spec.Request) (hcom : Spec.Command s items r)
    (hfmt : r.format = "netcdf".toList) (a : TableReq) (hask : TableAsked s ts items a) (o : NcOut)
    (hnc : Spec.NcCommand s items r o) (t : Table k) (set : Dataset k)
    (hrun : CommandRun.run ne (withTable s t) (argv items) = .stored set) (hne : set.records ≠ []) (e : PyErr)
    (hl : w.table le (qOf s ts r a) = (.error e, w)) :
    runIn le ne s ts w (argv items) = (.ended (.error .attributeError) [], w) := by
  have hf : r.format ≠ "pcraster".toList := by rw [hfmt]; decide
  rw [netcdf_core ne (withTable s t) items r (with_table hcom t) hf o (with_table_nc hnc t), decide_eq_true hfmt]
    at hrun
  obtain ⟨info, u, ms, m0, hi, hset, hm, h0, hrec⟩ := stored_parts ne (Spec.runOf s r) t o set hrun
  have hms : ms ≠ [] := by
    rintro rfl
    exact hne (record_empty _ o u m0 set hrec)
  rw [table_core_nc le ne s ts w items r hcom a hask hf o hnc, decide_eq_true hfmt]
  unfold ncIn
  rw [hi, hset]
  dsimp only
  have hfail : u.mapsIn le ne w (qOf s ts r a) (qOf s ts r a) = ⟨[], some e, w⟩ := by
    cases hfd : u.fields ne with
    | error e =>
      have hf' : ({ u with table := t, table2 := t } : RunIn n n k).fields ne = .error e := hfd
      unfold RunIn.maps at hm
      rw [hf'] at hm
      cases hm
    | ok vc =>
      obtain ⟨values, change⟩ := vc
      rw [maps_pure ne u t values change hfd] at hm
      unfold RunIn.mapsIn
      rw [hfd]
      dsimp only
      cases hj : (gridLoop change false values).map fun p => (p.1.endStep, p.2.1, p.2.2) with
      | nil =>
        rw [hj] at hm
        exact absurd (Except.ok.inj hm).symm hms
      | cons j l =>
        obtain ⟨name, f, second⟩ := j
        unfold RunIn.mapLoop
        rw [ite_self, hl]
  rw [hfail]

end CommandRun

/-- **C173.** A command that would write maps if its table were there, when no table is registered for it. If none can be
created (no `-B`, or the folder of the configuration cannot be used, whatever folder `-N` names), the exit status is 1; if
the target has less than 250 cells and the method is `nearest`, or one of the GRIB library without `-X`, the command ends
with an uncaught `ZeroDivisionError`. In either case no map is written, and tables and registry stay as they are. -/
theorem command_table_missing (le : Str → Str → Bool) (ne : NumExpr) (s : Site n k) (ts : TableSite k)
    (w : Store (Table k)) (items : List (Spec.Written × Str × JVal)) (r : Spec.Request) (hcom : Spec.Command s items r)
    (hfmt : r.format = "pcraster".toList) (a : TableReq) (hask : TableAsked s ts items a) (hnew : NoTable w ts r)
    (t : Table k) (files : List (Str × (Fin k → Num)))
    (hrun : CommandRun.run ne (withTable s t) (argv items) = .ended (.ok 0) files) (hne : files ≠ []) :
    (CannotCreate s ts a → runIn le ne s ts w (argv items) = (.ended (.ok 1) [], w)) ∧
    (CanCreate w s ts a → (ts.rows r.latMap).flatten = List.finRange k → 0 < k → k < 250 →
      TellsProgress a.splits (ts.method a.parallel r.mode r.latMap r.lonMap r.input) →
      runIn le ne s ts w (argv items) = (.ended (.error .zeroDivision) [], w)) := by
  refine ⟨fun hc => ?_, fun hcan hrows h0 hk hm => ?_⟩
  · obtain ⟨c, hc3, hl⟩ := cannot_create hcom.acceptable le hnew hc
    rw [pcr_fails le ne s ts w items r hcom hfmt a hask t files hrun hne _ hl]
    congr 2
    unfold Spec.failure
    split
    · rename_i h; injection h with h; exact absurd h hc3
    · rfl
    · rfl
    · rename_i _ h _; exact absurd rfl (h c)
  · exact pcr_fails le ne s ts w items r hcom hfmt a hask t files hrun hne _
      (small_target hcom.acceptable le hnew hcan hrows h0 hk hm)

/-- **C173**, netCDF: a command that would store a data set with at least one record ends in these cases with an uncaught
`AttributeError`, and changes neither tables nor registry. -/
theorem command_table_netcdf_missing (le : Str → Str → Bool) (ne : NumExpr) (s : Site n k) (ts : TableSite k)
    (w : Store (Table k)) (items : List (Spec.Written × Str × JVal)) (r : Spec.Request) (hcom : Spec.Command s items r)
    (hfmt : r.format = "netcdf".toList) (a : TableReq) (hask : TableAsked s ts items a) (hnew : NoTable w ts r)
    (o : NcOut) (hnc : Spec.NcCommand s items r o) (t : Table k) (d : Dataset k)
    (hrun : CommandRun.run ne (withTable s t) (argv items) = .stored d) (hne : d.records ≠ [])
    (hcase : CannotCreate s ts a ∨ (CanCreate w s ts a ∧ (ts.rows r.latMap).flatten = List.finRange k ∧ 0 < k ∧
      k < 250 ∧ TellsProgress a.splits (ts.method a.parallel r.mode r.latMap r.lonMap r.input))) :
    runIn le ne s ts w (argv items) = (.ended (.error .attributeError) [], w) := by
  rcases hcase with hc | ⟨hcan, hrows, h0, hk, hm⟩
  · obtain ⟨c, hc3, hl⟩ := cannot_create hcom.acceptable le hnew hc
    exact nc_fails le ne s ts w items r hcom hfmt a hask o hnc t d hrun hne _ hl
  · exact nc_fails le ne s ts w items r hcom hfmt a hask o hnc t d hrun hne _
      (small_target hcom.acceptable le hnew hcan hrows h0 hk hm)

namespace Demo

/-- A command to which `-B` is added makes the same request. -/
theorem with_create {s : Site n k} {items : List (Spec.Written × Str × JVal)} {r : Spec.Request}
    (h : Spec.Command s items r) :
    Spec.Command s (items ++ [(.switch "-B".toList, "createIntertable".toList, .bool true)]) r where
  written := by
    intro q hq
    rcases List.mem_append.1 hq with hq | hq
    · exact h.written q hq
    · rw [List.mem_singleton] at hq
      subst hq
      exact ⟨("-B", "--createIntertable"), by unfold Spec.switches; simp, Or.inl rfl,
        (show "createIntertable".toList = List.drop 2 "--createIntertable".toList by decide), rfl⟩
  cwd := h.cwd
  file := by
    obtain ⟨cmd, h1, h2, h3⟩ := h.file
    refine ⟨cmd, last_append h1 (by decide), h2, { h3 with
      input := last_append h3.input (by decide)
      outDir := typed_append h3.outDir (by decide)
      tstart := chosen_append h3.tstart (by decide)
      tend := chosen_append h3.tend (by decide)
      dataTime := chosen_append h3.dataTime (by decide)
      dataDate := chosen_append h3.dataDate (by decide)
      member := typed_append h3.member (by decide)
      namePrefix := chosen_append h3.namePrefix (by decide)
      fmap := chosen_append h3.fmap (by decide)
      ext := chosen_append h3.ext (by decide)
      format := chosen_append h3.format (by decide) }⟩
  run := ⟨absent_append h.run.1 (by decide), absent_append h.run.2.1 (by decide), absent_append h.run.2.2 (by decide)⟩
  acceptable := h.acceptable

/-- the command line of `rainItems`, with `-B`. -/
def makeItems : List (Spec.Written × Str × JVal) :=
  rainItems ++ [(.switch "-B".toList, "createIntertable".toList, .bool true)]

example : argv makeItems = ["-c", "./cmd.json", "--inputFile=rain.grb", "-s12", "-o", "out", "-B"].map String.toList :=
  rfl

/-- a corrector that is not used. -/
def level : Height 250 := ⟨fun x _ _ => x, ⟨fun _ => .fin 0, none⟩, ⟨fun _ => .fin 0, none⟩, .nan, .nan⟩

/-- the site of `rainSite`, with the cells of `cellMethod` and a folder for tables. -/
def cellSite (cmd : CmdFile) (file : List (GMsg (Arr 2))) (mask : Option (Fin 250 → Bool)) : Site 2 250 where
  fs := rainSite.fs
  commands := fun _ => cmd
  parameters := rainSite.parameters
  known := rainSite.known
  vars := rainSite.vars
  special := rainSite.special
  tblDir := "/t/".toList
  geoDir := []
  cwd := rainSite.cwd
  grib := fun _ => (file, true)
  second := fun _ => ⟨0, ⟨[], false⟩⟩
  tables := fun _ _ _ _ => (.nearest fun _ => 0, .nearest fun _ => 0)
  mvOf := rainSite.mvOf
  clone := fun _ => (mask, .nan)
  heights := fun _ _ _ => (level, level)
  describe := rainSite.describe
  float := rainSite.float
  overflow := rainSite.overflow

/-- what it finds about tables. -/
def cellTables : TableSite 250 where
  method := fun _ _ _ _ _ => cellMethod
  splits := fun _ => none
  rows := fun _ => [List.finRange 250]
  gridId := fun _ => "grid".toList
  target := fun _ _ => "target".toList
  globalDir := none
  isDir := fun p => decide (p = "/t/".toList)
  canWrite := fun p => decide (p = "/t/".toList)

theorem cell_command (aggr : Option (JAggr × JVal)) (ao : Option AggrOpts) (h : Spec.AggrIn aggr ao)
    (file : List (GMsg (Arr 2))) (mask : Option (Fin 250 → Bool)) :
    Spec.Command (cellSite { rainCmd with aggr := aggr } file mask) rainItems { rainReq with aggr := ao } := by
  obtain ⟨h1, h2, ⟨cmd, h3, h4, h5⟩, h6, h7⟩ := rain_command
  exact ⟨h1, h2, ⟨cmd, h3, h4, { h5 with aggr := h }⟩, h6, { h7 with }⟩

theorem cell_nc_command (aggr : Option (JAggr × JVal)) (ao : Option AggrOpts) (h : Spec.AggrIn aggr ao)
    (file : List (GMsg (Arr 2))) (mask : Option (Fin 250 → Bool)) :
    Spec.Command (cellSite { ncCmd with aggr := aggr } file mask) rainItems { ncReq with aggr := ao } := by
  obtain ⟨h1, h2, ⟨cmd, h3, h4, h5⟩, h6, h7⟩ := nc_command
  exact ⟨h1, h2, ⟨cmd, h3, h4, { h5 with aggr := h }⟩, h6, { h7 with }⟩

theorem make_asked (cmd : CmdFile) (hcmd : inJson cmd.base .intertableDir = .null) (file : List (GMsg (Arr 2)))
    (mask : Option (Fin 250 → Bool)) :
    TableAsked (cellSite cmd file mask) cellTables makeItems ⟨true, "/t/".toList, none, false⟩ where
  create := Or.inl ⟨rainItems, _, [], rfl, by intro y hy; cases hy⟩
  parallel := Or.inr ⟨absent_append (rain_absent _ (by decide +kernel)) (by decide), rfl⟩
  file := by
    intro c _
    refine ⟨?_, rfl⟩
    show Chosen makeItems cmd.base _ _ _ _
    refine Or.inr ⟨absent_append (rain_absent _ (by decide +kernel)) (by decide), ?_, ?_⟩
    · rw [hcmd]; exact Or.inl (by decide +kernel)
    · rw [hcmd]; rfl

theorem bare_no_table (ts : TableSite 250) (r : Request) : NoTable bare ts r := by
  intro mark _ h
  cases h

theorem can_create (cmd : CmdFile) (file : List (GMsg (Arr 2))) (mask : Option (Fin 250 → Bool)) :
    CanCreate bare (cellSite cmd file mask) cellTables ⟨true, "/t/".toList, none, false⟩ :=
  ⟨rfl, ⟨show "/t/".toList ≠ [] by decide, rfl, rfl⟩, by decide, (by intro p hp; cases hp)⟩

/-- C170: three maps. -/
example (le : Str → Str → Bool) : ∃ files, EndsAlways le [] [] (fun _ => none)
      (cellSite { rainCmd with aggr := none } rain none) cellTables bare makeItems { rainReq with aggr := none }
      ⟨true, "/t/".toList, none, false⟩ (fun _ => True) (.ended (.ok 0) files) ∧ files.length = 3 := by
  obtain ⟨R, ord, files, h1, h2, h3, h4, h5, h6⟩ := command_table_plain_run le [] [] (fun _ => none)
    (cellSite { rainCmd with aggr := none } rain none) cellTables bare (bare_reached le) makeItems
    { rainReq with aggr := none } (with_create (cell_command none none (Or.inl ⟨rfl, rfl⟩) rain none)) rfl (by decide)
    ⟨true, "/t/".toList, none, false⟩ (make_asked _ rfl _ _) (bare_no_table _ _) (can_create _ _ _) (by simp [cellTables])
    (.nearest cellDist 3) cell_answers id (-9999) rain rfl (by decide +kernel) rfl _ rfl 18 rain_last _ rfl
    (fun h => absurd (congrArg List.length h) (by decide +kernel)) 10
    (by decide +kernel) (differ_of_ends (by decide +kernel)) (by decide +kernel) (by decide +kernel)
    (.inl ⟨.inr rfl, rfl⟩)
  exact ⟨files, h4, h5.trans (h2.length_eq.trans (by decide +kernel))⟩

/-- C171: the daily amounts at the second point are 12 and 16. -/
example (le : Str → Str → Bool) : ∃ files, EndsAlways le [] [] (fun _ => none)
      (cellSite { rainCmd with aggr := sixHours } rain none) cellTables bare makeItems
      { rainReq with aggr := some ⟨6, "accumulation", false, false⟩ } ⟨true, "/t/".toList, none, false⟩ (fun _ => True)
      (.ended (.ok 0) files) ∧ files.length = 2 ∧ ∃ p, files[0]? = some p ∧ p.1 = "out/R0000000.001".toList ∧
        p.2 0 = .fin 12 ∧ p.2 249 = .fin (-1) := by
  obtain ⟨R, files, h1, h2, h3, h4⟩ := command_table_accumulation_run le [] [] (fun _ => none)
    (cellSite { rainCmd with aggr := sixHours } rain none) cellTables bare (bare_reached le) makeItems
    { rainReq with aggr := some ⟨6, "accumulation", false, false⟩ }
    (with_create (cell_command sixHours _ aggr_in rain none)) rfl (by decide)
    ⟨true, "/t/".toList, none, false⟩ (make_asked _ rfl _ _) (bare_no_table _ _) (can_create _ _ _) (by simp [cellTables])
    (.nearest cellDist 3) cell_answers id (-9999) rain rfl (by decide +kernel) 6 false false rfl (by decide) _ rfl 18
    rain_last rain_steps 12 18
    rfl rfl _ rfl (fun h => absurd (congrArg List.length h) (by decide +kernel)) 10
    (by decide +kernel) (by decide +kernel) (by decide +kernel) (by decide +kernel) (.inl ⟨.inr rfl, rfl⟩)
    (by
      rintro t ⟨j, rfl, hj⟩
      have hf : firstEnd 12 6 = 12 := rfl
      rw [hf] at hj ⊢
      have : j = 0 ∨ j = 1 := by omega
      rcases this with rfl | rfl
      · exact ⟨by decide +kernel, .inr (by decide +kernel)⟩
      · exact ⟨by decide +kernel, .inr (by decide +kernel)⟩)
  have hlen : files.length = 2 := by
    have a1 := (h3 1).2 (by decide)
    have a2 := mt (h3 2).1 (by decide)
    omega
  refine ⟨files, h2, hlen, ?_⟩
  obtain ⟨mc, vp, D, hmc, hend, hvp, hD, hfile⟩ := h4 0 12 rfl (by decide)
  refine ⟨_, hfile, ?_, ?_⟩
  · show folder rainReq.outDir ++ pcrName rainReq.namePrefix rainReq.fmap rainReq.ext 1 = _
    decide +kernel
  dsimp only
  obtain ⟨g1, g2⟩ := cell_gives h1 (cutField true D)
  have hval : ∀ m ∈ taken rain ⟨"tp".toList, none, none, none, none⟩ (max 0 (12 - 6)) 18,
      (m.endStep = 12 → m.values.data 1 = .fin 5) ∧ (m.endStep = 6 → m.values.data 1 = .fin 2) := by decide +kernel
  rw [if_neg (by rintro ⟨h, -⟩; exact absurd h (by decide))] at hvp
  obtain ⟨mp, hmp, hpe, rfl⟩ := hvp
  have hd : D.data 1 = .fin 12 := by
    rw [(hD 1).1]
    show ((if mc.values.data 1 = .fin (-9999) then Num.fin (-9999) else mc.values.data 1) -
      (if mp.values.data 1 = .fin (-9999) then Num.fin (-9999) else mp.values.data 1)) * Num.ofInt 24 / Num.ofInt 6 = _
    rw [(hval mc hmc).1 hend, (hval mp hmp).2 hpe]
    decide +kernel
  have hc : (cutField true D).data 1 = .fin 12 := by
    show (if _ then _ else _) = _
    rw [hd]
    decide +kernel
  constructor
  · show shown none .nan (R (cutField true D) 0) 0 = _
    rw [g1, hc]
    decide +kernel
  · show shown none .nan (R (cutField true D) 249) 249 = _
    rw [g2]
    rfl

/-- C171: the hypotheses for means. -/
example (le : Str → Str → Bool) : ∃ files, EndsAlways le [] [] (fun _ => none)
      (cellSite { rainCmd with aggr := meanHours } avg6.file none) cellTables bare makeItems
      { rainReq with aggr := some ⟨6, "average", false, false⟩ } ⟨true, "/t/".toList, none, false⟩ (fun _ => True)
      (.ended (.ok 0) files) ∧ files.length = 2 := by
  obtain ⟨R, files, h1, h2, h3, h4⟩ := command_table_average_run le [] [] (fun _ => none)
    (cellSite { rainCmd with aggr := meanHours } avg6.file none) cellTables bare (bare_reached le) makeItems
    { rainReq with aggr := some ⟨6, "average", false, false⟩ }
    (with_create (cell_command meanHours _ (Or.inr ⟨_, _, 6, "average", false, rfl, Or.inl rfl, by decide, rfl,
      by decide, rfl, Or.inr (Or.inl ⟨rfl, rfl⟩)⟩) avg6.file none)) rfl (by decide)
    ⟨true, "/t/".toList, none, false⟩ (make_asked _ rfl _ _) (bare_no_table _ _) (can_create _ _ _) (by simp [cellTables])
    (.nearest cellDist 3) cell_answers id (-9999) avg6.file rfl (by decide +kernel) 6 false rfl (by decide) _ rfl
    (by decide +kernel) 18
    ⟨⟨{ fmsg "tp" 0 18 7 9 with stepType := "instant".toList, startStep := 18 },
      List.mem_map.2 ⟨fmsg "tp" 0 18 7 9, by unfold rain; simp, rfl⟩, by decide +kernel, rfl⟩, by decide +kernel⟩
    ⟨by decide +kernel, fun m hm => (by
      have := congrArg List.length hm
      have h3 : (avg6.file.filter (named avg6.sel)).length = 3 := by decide +kernel
      have h4 := h3.symm.trans this
      cases h4)⟩ 12 18 rfl (by decide) rfl _ rfl 10
    (by decide +kernel) (by decide +kernel) (by decide +kernel) (by decide +kernel) (.inl ⟨.inr rfl, rfl⟩)
    (by decide +kernel)
  refine ⟨files, h2, ?_⟩
  have a1 := (h3 1).2 (by decide)
  have a2 := mt (h3 2).1 (by decide)
  omega

/-- the data set asked for. -/
def cellAsked (path : String) : NcOut := { ncAsked with path := path.toList }

theorem cellAsked_means (path : String) : NcMeans (cellAsked path) .i2 (1 / 2) 1 (some 0) none :=
  { ncAsked_means with }

theorem cell_nc_asked (aggr : Option (JAggr × JVal)) (ao : Option AggrOpts) (file : List (GMsg (Arr 2)))
    (mask : Option (Fin 250 → Bool)) (path : String)
    (hp : path.toList = inFolder "out".toList ("R".toList ++ "_".toList ++
      (match ao with | none => "None" | some a => a.type).toList ++ ".nc".toList)) :
    Spec.NcCommand (cellSite { ncCmd with aggr := aggr } file mask) makeItems { ncReq with aggr := ao }
      (cellAsked path) := by
  intro cmd _
  have h := nc_asked "./cmd.json".toList ⟨[], _, rainItems.tail, rfl, by decide +kernel⟩
  exact {
    path := hp
    longName := h.longName
    unit := h.unit
    stepUnits := chosen_append h.stepUnits (by decide)
    validMin := chosen_append h.validMin (by decide)
    validMax := chosen_append h.validMax (by decide)
    valueFormat := chosen_append h.valueFormat (by decide)
    offset := chosen_append h.offset (by decide)
    scaleFactor := chosen_append h.scaleFactor (by decide)
    float := rfl
    overflow := rfl }

/-- C172: three records. -/
example (le : Str → Str → Bool) : ∃ d, EndsAlways le [] [] (fun _ => none)
      (cellSite { ncCmd with aggr := none } rainH (some fun _ => false)) cellTables bare makeItems
      { ncReq with aggr := none } ⟨true, "/t/".toList, none, false⟩
      (fun items' => NcCommand (cellSite { ncCmd with aggr := none } rainH (some fun _ => false)) items'
        { ncReq with aggr := none } (cellAsked "out/R_None.nc")) (.stored d) ∧ d.records.length = 3 := by
  obtain ⟨R, ord, d, -, h1, -, h2, -, -, h3, -⟩ := command_table_netcdf_plain_run le [] [] (fun _ => none)
    (cellSite { ncCmd with aggr := none } rainH (some fun _ => false)) cellTables bare (bare_reached le) makeItems
    { ncReq with aggr := none } (with_create (cell_nc_command none none (Or.inl ⟨rfl, rfl⟩) rainH _)) rfl
    (cellAsked "out/R_None.nc") (cell_nc_asked none none _ _ "out/R_None.nc" (by decide +kernel)) (cellAsked_means _)
    (some "D".toList) (.inr ⟨_, rfl, rfl⟩) id (-9999) rainH rfl (by decide +kernel) rfl _ rfl 18 rainH_last _ rfl
    (fun h => absurd (congrArg List.length h) (by decide +kernel)) 10 (by decide +kernel)
    (differ_of_ends (by decide +kernel)) (by decide +kernel) (20240501, 12) (by decide +kernel) "h".toList
    (by decide +kernel) hours (.inl ⟨.inr rfl, rfl⟩) ⟨true, "/t/".toList, none, false⟩ (make_asked _ rfl _ _)
    (bare_no_table _ _) (can_create _ _ _) (by simp [cellTables]) (.nearest cellDist 3) cell_answers (fun _ => false) rfl
  exact ⟨d, h2, h3.trans (h1.length_eq.trans (by decide +kernel))⟩

/-- C172, accumulation. -/
example (le : Str → Str → Bool) : ∃ d, EndsAlways le [] [] (fun _ => none)
      (cellSite { ncCmd with aggr := sixHours } rainH (some fun _ => false)) cellTables bare makeItems
      { ncReq with aggr := some ⟨6, "accumulation", false, false⟩ } ⟨true, "/t/".toList, none, false⟩
      (fun items' => NcCommand (cellSite { ncCmd with aggr := sixHours } rainH (some fun _ => false)) items'
        { ncReq with aggr := some ⟨6, "accumulation", false, false⟩ } (cellAsked "out/R_accumulation.nc"))
      (.stored d) ∧ 2 ≤ d.records.length := by
  obtain ⟨R, d, times, -, h2, -, -, hget, hl, -⟩ := command_table_netcdf_accumulation_run le [] [] (fun _ => none)
    (cellSite { ncCmd with aggr := sixHours } rainH (some fun _ => false)) cellTables bare (bare_reached le) makeItems
    { ncReq with aggr := some ⟨6, "accumulation", false, false⟩ }
    (with_create (cell_nc_command sixHours _ aggr_in rainH _)) rfl (cellAsked "out/R_accumulation.nc")
    (cell_nc_asked sixHours _ _ _ "out/R_accumulation.nc" (by decide +kernel)) (cellAsked_means _)
    (some "D".toList) (.inr ⟨_, rfl, rfl⟩) id (-9999) rainH rfl
    (by decide +kernel) 6 false false rfl (by decide) _ rfl 18 rainH_last rainH_steps 12 18
    rfl rfl _ rfl (fun h => absurd (congrArg List.length h) (by decide +kernel)) 10
    (by decide +kernel) (by decide +kernel) (by decide +kernel) (20240501, 12) (by decide +kernel) "h".toList
    (by decide +kernel) hours (.inl ⟨.inr rfl, rfl⟩) ⟨true, "/t/".toList, none, false⟩ (make_asked _ rfl _ _)
    (bare_no_table _ _) (can_create _ _ _) (by simp [cellTables]) (.nearest cellDist 3) cell_answers
    (by
      rintro t ⟨j, rfl, hj⟩
      have hf : firstEnd 12 6 = 12 := rfl
      rw [hf] at hj ⊢
      have : j = 0 ∨ j = 1 := by omega
      rcases this with rfl | rfl
      · exact ⟨by decide +kernel, .inr (by decide +kernel)⟩
      · exact ⟨by decide +kernel, .inr (by decide +kernel)⟩) (by decide) (fun _ => false) rfl
  refine ⟨d, h2, ?_⟩
  rw [hl]
  exact (List.getElem?_eq_some_iff.1 ((hget 1 18).2 (by decide))).1

/-- C172, average. -/
example (le : Str → Str → Bool) : ∃ d, EndsAlways le [] [] (fun _ => none)
      (cellSite { ncCmd with aggr := meanHours } valuesH (some fun _ => false)) cellTables bare makeItems
      { ncReq with aggr := some ⟨6, "average", false, false⟩ } ⟨true, "/t/".toList, none, false⟩
      (fun items' => NcCommand (cellSite { ncCmd with aggr := meanHours } valuesH (some fun _ => false)) items'
        { ncReq with aggr := some ⟨6, "average", false, false⟩ } (cellAsked "out/R_average.nc"))
      (.stored d) ∧ 2 ≤ d.records.length := by
  obtain ⟨R, d, times, -, h2, -, -, hget, hl, -⟩ := command_table_netcdf_average_run le [] [] (fun _ => none)
    (cellSite { ncCmd with aggr := meanHours } valuesH (some fun _ => false)) cellTables bare (bare_reached le) makeItems
    { ncReq with aggr := some ⟨6, "average", false, false⟩ }
    (with_create (cell_nc_command meanHours _ (Or.inr ⟨_, _, 6, "average", false, rfl, Or.inl rfl, by decide, rfl,
      by decide, rfl, Or.inr (Or.inl ⟨rfl, rfl⟩)⟩) valuesH _)) rfl (cellAsked "out/R_average.nc")
    (cell_nc_asked meanHours _ _ _ "out/R_average.nc" (by decide +kernel)) (cellAsked_means _)
    (some "D".toList) (.inr ⟨_, rfl, rfl⟩) id (-9999) valuesH rfl
    (by decide +kernel) 6 false rfl (by decide) _ rfl (by decide +kernel) 18 valuesH_last valuesH_steps 12 18
    rfl (by decide) rfl _ rfl 10
    (by decide +kernel) (by decide +kernel) (by decide +kernel) (20240501, 12) (by decide +kernel) "h".toList
    (by decide +kernel) hours (.inl ⟨.inr rfl, rfl⟩) ⟨true, "/t/".toList, none, false⟩ (make_asked _ rfl _ _)
    (bare_no_table _ _) (can_create _ _ _) (by simp [cellTables]) (.nearest cellDist 3) cell_answers
    (by decide +kernel) (by decide) (fun _ => false) rfl
  refine ⟨d, h2, ?_⟩
  rw [hl]
  exact (List.getElem?_eq_some_iff.1 ((hget 1 18).2 (by decide))).1

/-- the sites of `rainSite` and `ncSite`, which have one cell, with a folder for tables. -/
def oneSite (nc : Bool) (dir : String) : Site 2 1 := { (if nc then ncSite else rainSite) with tblDir := dir.toList }

/-- nearest neighbour for this cell; only `/t/` can be written. -/
def oneTables : TableSite 1 where
  method := fun _ _ _ _ _ => .nearest true 2 farSrc fun _ => (0, 1)
  splits := fun _ => none
  rows := fun _ => [[0]]
  gridId := fun _ => "grid".toList
  target := fun _ _ => "target".toList
  globalDir := none
  isDir := fun p => decide (p = "/t/".toList)
  canWrite := fun p => decide (p = "/t/".toList)

theorem one_asked (nc : Bool) (dir : String) :
    TableAsked (oneSite nc dir) oneTables makeItems ⟨true, dir.toList, none, false⟩ where
  create := Or.inl ⟨rainItems, _, [], rfl, by intro y hy; cases hy⟩
  parallel := Or.inr ⟨absent_append (rain_absent _ (by decide +kernel)) (by decide), rfl⟩
  file := by
    intro c _
    refine ⟨?_, rfl⟩
    refine Or.inr ⟨absent_append (rain_absent _ (by decide +kernel)) (by decide), ?_, ?_⟩
    · cases nc <;> exact Or.inl (show JVal.null ∉ _ by decide +kernel)
    · cases nc <;> rfl

theorem one_command (dir : String) : Spec.Command (oneSite false dir) rainItems rainReq := by
  obtain ⟨h1, h2, ⟨cmd, h3, h4, h5⟩, h6, h7⟩ := rain_command
  exact ⟨h1, h2, ⟨cmd, h3, h4, { h5 with }⟩, h6, { h7 with }⟩

theorem one_nc_command (dir : String) : Spec.Command (oneSite true dir) rainItems ncReq := by
  obtain ⟨h1, h2, ⟨cmd, h3, h4, h5⟩, h6, h7⟩ := nc_command
  exact ⟨h1, h2, ⟨cmd, h3, h4, { h5 with }⟩, h6, { h7 with }⟩

/-- No tables yet. -/
def none1 : Store (Table 1) := ⟨⟨[], [], none⟩, [], []⟩

theorem one_no_table (r : Request) : NoTable none1 oneTables r := by
  intro mark _ h
  cases h

theorem one_create (nc : Bool) : CanCreate none1 (oneSite nc "/t/") oneTables ⟨true, "/t/".toList, none, false⟩ :=
  ⟨rfl, ⟨by cases nc <;> decide, by cases nc <;> rfl, by cases nc <;> rfl⟩, by decide, (by intro p hp; cases hp)⟩

theorem maps_of {r : Result 1} {p : String × Num} {l : List (String × Num)} (h : outcome r = some (.ok 0, p :: l)) :
    ∃ files, r = .ended (.ok 0) files ∧ files ≠ [] := by
  cases r with
  | ended st files =>
    injection h with h
    injection h with h1 h2
    subst h1
    refine ⟨files, rfl, ?_⟩
    rintro rfl
    cases h2
  | stored d => cases h
  | help => cases h
  | other => cases h

theorem set_of {r : Result 1} {a : String} {q : ℚ} {l l' : List ℚ} {b : Option ℚ}
    (h : stored r = some (a, q :: l, l', b)) : ∃ d, r = .stored d ∧ d.records ≠ [] := by
  cases r with
  | stored d =>
    refine ⟨d, rfl, fun h0 => ?_⟩
    change some (_, d.records.map _, _, _) = _ at h
    rw [h0] at h
    cases h
  | ended st files => cases h
  | help => cases h
  | other => cases h

/-- C173: only one cell. -/
example (le : Str → Str → Bool) : runIn le (fun _ => none) (oneSite false "/t/") oneTables none1 (argv makeItems) =
    (.ended (.error .zeroDivision) [], none1) := by
  obtain ⟨files, h1, h2⟩ := maps_of (r := CommandRun.run (fun _ => none)
    (withTable (oneSite false "/t/") (.nearest fun _ => 1)) (argv makeItems)) (p := ("out/R0000000.001", .fin 12))
    (l := [("out/R0000000.002", .fin 16)]) (by decide +kernel)
  exact (command_table_missing le _ _ oneTables none1 makeItems rainReq (with_create (one_command "/t/")) rfl _
    (one_asked false "/t/") (one_no_table _) _ files h1 h2).2 (one_create false) rfl (by decide) (by decide)
    (.inl ⟨_, _, _, _, rfl, rfl⟩)

/-- C173: a folder of tables that cannot be written. -/
example (le : Str → Str → Bool) : runIn le (fun _ => none) (oneSite false "/u/") oneTables none1 (argv makeItems) =
    (.ended (.ok 1) [], none1) := by
  obtain ⟨files, h1, h2⟩ := maps_of (r := CommandRun.run (fun _ => none)
    (withTable (oneSite false "/u/") (.nearest fun _ => 1)) (argv makeItems)) (p := ("out/R0000000.001", .fin 12))
    (l := [("out/R0000000.002", .fin 16)]) (by decide +kernel)
  exact (command_table_missing le _ _ oneTables none1 makeItems rainReq (with_create (one_command "/u/")) rfl _
    (one_asked false "/u/") (one_no_table _) _ files h1 h2).1 (.inr (.inr (.inl rfl)))

theorem one_nc_asked (dir : String) : Spec.NcCommand (oneSite true dir) makeItems ncReq ncAsked := by
  intro cmd _
  have h := nc_asked "./cmd.json".toList ⟨[], _, rainItems.tail, rfl, by decide +kernel⟩
  exact { h with
    stepUnits := chosen_append h.stepUnits (by decide)
    validMin := chosen_append h.validMin (by decide)
    validMax := chosen_append h.validMax (by decide)
    valueFormat := chosen_append h.valueFormat (by decide)
    offset := chosen_append h.offset (by decide)
    scaleFactor := chosen_append h.scaleFactor (by decide) }

/-- C173: netCDF. -/
example (le : Str → Str → Bool) : runIn le (fun _ => none) (oneSite true "/t/") oneTables none1 (argv makeItems) =
    (.ended (.error .attributeError) [], none1) := by
  obtain ⟨d, h1, h2⟩ := set_of (r := CommandRun.run (fun _ => none)
    (withTable (oneSite true "/t/") (.nearest fun _ => 1)) (argv makeItems)) (a := "out/R_accumulation.nc") (q := 22)
    (l := [30]) (l' := [1 / 2, 3 / 4]) (b := some (-2)) (by decide +kernel)
  exact command_table_netcdf_missing le _ _ oneTables none1 makeItems ncReq (with_create (one_nc_command "/t/")) rfl _
    (one_asked true "/t/") (one_no_table _) ncAsked (one_nc_asked "/t/") _ d h1 h2
    (.inr ⟨one_create true, rfl, by decide, by decide, .inl ⟨_, _, _, _, rfl, rfl⟩⟩)

end Demo

end PyG2P
