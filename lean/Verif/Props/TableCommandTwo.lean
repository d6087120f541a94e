import Verif.Props.TableCommand
import Verif.Props.TwoGridCommand

/-! # Commands with two input files that create both tables -/

namespace PyG2P
open ArgParse CommandRun Store Spec TableApply Converter Aggregator
variable {n m k : Nat}

namespace Spec

/-- The grids of the two input files have different identifiers in names of tables (where `$` is written `_`). -/
def GridsApart (ts : TableSite k) (input input2 : Str) : Prop :=
  (ts.gridId input).map (fun c => if c = '$' then '_' else c) ≠
    (ts.gridId input2).map fun c => if c = '$' then '_' else c

/-- `EndsAlways` for commands with second input file `input2`. -/
def EndsAlwaysTwo (le : Str → Str → Bool) (global template : Dict Str TblEntry) (ne : NumExpr) (s : Site n k)
    (ts : TableSite k) (w : Store (Table k)) (items : List (Written × Str × JVal)) (r : Request) (input2 : Str)
    (a : TableReq) (P : List (Written × Str × JVal) → Prop) (res : Result k) : Prop :=
  (runIn le ne s ts w (argv items)).1 = res ∧
  ∀ (items' : List (Written × Str × JVal)) (a' : TableReq) (h : List (Act (Table k))), TwoFileCommand s items' r input2 →
    TableAsked s ts items' a' → a'.dir = a.dir → P items' →
    (runIn le ne s ts (after le global template (runIn le ne s ts w (argv items)).2 h) (argv items')).1 = res

/-- The same site with known tables for the two files. -/
def withTables (s : Site n k) (input2 : Str) (t t2 : Table k) : Site n k :=
  { s with tables := fun _ _ _ file => if file = input2 then (t2, t2) else (t, t) }

end Spec

/-! ## Two lookups -/

/-- A lookup that gives `t`: its table is settled, or it may be created. -/
def Ready (w : Store (Table k)) (q : Lookup k) (t : Table k) : Prop :=
  Settled w q t ∨ (MayCreate w q.run ∧ q.build = .ok t)

theorem ready_lookup (le : Str → Str → Bool) {w : Store (Table k)} (hs : Sound w) {q : Lookup k} {t : Table k}
    (h : Ready w q t) : (w.table le q).1 = .ok t ∧ Settled (w.table le q).2 q t := by
  rcases h with h | ⟨h, hb⟩
  · exact ⟨(settled_lookup le hs h).1, settled_table le hs h⟩
  · obtain ⟨h1, h2⟩ := table_new le w q h t hb
    exact ⟨h1, own_lookup le hs h2 h1⟩

theorem table_new_store (le : Str → Str → Bool) (w : Store (Table k)) (q : Lookup k) (h : MayCreate w q.run) (t : Table k)
    (hb : q.build = .ok t) : ∃ d i, (w.table le q).2 = w.created le q.run (d, q.run.name i) t := by
  obtain ⟨h1, h2, h3, ⟨d, h4, h5⟩, h6⟩ := h
  obtain ⟨i, hp, hx, hst⟩ := scipy_new le w q.run d t h1 h2 h3 h4 h6
  refine ⟨d, i, ?_⟩
  unfold Store.table
  by_cases hs : q.scipy = true
  · rw [if_pos hs, hb, hst]
  · rw [if_neg hs, hb, grib_new le q.checks w q.run t _ hp hx (isGz_name q.run i) h2 h3]

theorem name_once (r : TblRun) (i : Nat) (s : Str) : r.name i ≠ s ++ ".gz".toList ++ ".gz".toList := by
  intro h
  have e : r.name i = ("tbl".toList ++ (if i = 0 then [] else '_' :: Str.ofNat i) ++
      ('_' :: (r.source ++ '_' :: (Str.ofNat r.targetSize ++ '_' :: (r.suffix ++ ".np".toList))))) ++ "y.gz".toList := by
    unfold TblRun.name tableName
    rw [show ".npy.gz".toList = ".np".toList ++ "y.gz".toList by decide]
    generalize "y.gz".toList = g
    generalize ".np".toList = y
    generalize "tbl".toList = t
    simp only [List.append_assoc, List.cons_append]
  have e2 : s ++ ".gz".toList ++ ".gz".toList = (s ++ ".g".toList) ++ "z.gz".toList := by
    rw [List.append_assoc, List.append_assoc]
    rfl
  rw [e, e2] at h
  have := List.append_inj_right' h (by decide)
  exact absurd this (by decide)

theorem create_other (le : Str → Str → Bool) {w : Store (Table k)} (hs : Sound w) {q q2 : Lookup k} {t : Table k}
    (hne : q2.run.id ≠ q.run.id) (h : Ready w q t) (hc : MayCreate w q2.run) : MayCreate (w.table le q).2 q2.run := by
  obtain ⟨c1, c2, c3, c4, c5⟩ := hc
  rcases h with h | ⟨h, hb⟩
  · obtain ⟨-, e2, e3⟩ := settled_lookup le hs h
    exact ⟨by rw [e3]; exact c1, c2, c3, c4, by rw [e2]; exact c5⟩
  · obtain ⟨d, i, e⟩ := table_new_store le w q h t hb
    rw [e]
    refine ⟨?_, c2, c3, c4, ?_⟩
    · show q2.run.id ∉ Dict.keys (Dict.set w.conf.vars q.run.id _)
      rw [Dict.mem_keys_set]
      rintro (h | h)
      · exact hne h
      · exact c1 h
    · intro p hp s
      have hp : p ∈ Dict.keys (Dict.set w.files (d, if isGz (q.run.name i) then q.run.name i else
        npyName (q.run.name i)) (.whole t)) := hp
      rw [Dict.mem_keys_set, if_pos (isGz_name q.run i)] at hp
      rcases hp with rfl | hp
      · exact name_once q.run i s
      · exact c5 p hp s

theorem ready_other (le : Str → Str → Bool) {w : Store (Table k)} (hs : Sound w) {q q2 : Lookup k} {t t2 : Table k}
    (hne : q2.run.id ≠ q.run.id) (h : Ready w q t) (h2 : Ready w q2 t2) : Ready (w.table le q).2 q2 t2 := by
  rcases h2 with h2 | ⟨h2, hb⟩
  · exact .inl (settled_table le hs h2)
  · exact .inr ⟨create_other le hs hne h h2, hb⟩

/-- Maps made with tables `t` and `t2`, which the lookups give. -/
theorem ready_loop {β γ : Type} (le : Str → Str → Bool) (r : RunIn n m k) (put : γ → Arr k → β) (q q2 : Lookup k)
    (hne : q2.run.id ≠ q.run.id) (t t2 : Table k) (l : List (γ × Field n m × Bool)) (o : List β)
    (hrun : pureMaps r t t2 put l = .ok o) (w : Store (Table k)) (hs : Sound w) (h1 : Ready w q t) (h2 : Ready w q2 t2) :
    (r.mapLoop le q q2 put w l).maps = o ∧ (r.mapLoop le q q2 put w l).error = none ∧
      Done r put q q2 t t2 l (r.mapLoop le q q2 put w l) ∧
      (Settled w q t → Settled (r.mapLoop le q q2 put w l).store q t) ∧
      (Settled w q2 t2 → Settled (r.mapLoop le q q2 put w l).store q2 t2) := by
  induction l generalizing w o with
  | nil =>
    have := Except.ok.inj hrun
    rw [← this]
    exact ⟨rfl, rfl, ⟨rfl, hs, (by intro e h; cases h), (by intro e h; cases h)⟩, id, id⟩
  | cons e l ih =>
    obtain ⟨x, f, b⟩ := e
    have hrun' := hrun
    unfold pureMaps at hrun'
    rw [List.mapM_cons] at hrun'
    obtain ⟨y, hy, hrun'⟩ := bind_ok_iff.1 hrun'
    obtain ⟨o', ho', hrun'⟩ := bind_ok_iff.1 hrun'
    have hrun' := Except.ok.inj hrun'
    dsimp only at hy
    have hb : Ready w (if b then q2 else q) (if b then t2 else t) := by
      cases b
      · exact h1
      · exact h2
    obtain ⟨e1, e2⟩ := ready_lookup le hs hb
    have hs' := sound_table le hs (if b then q2 else q)
    have g1 : Ready (w.table le (if b then q2 else q)).2 q t := by
      cases b
      · exact .inl e2
      · exact ready_other le hs (fun h => hne h.symm) h2 h1
    have g2 : Ready (w.table le (if b then q2 else q)).2 q2 t2 := by
      cases b
      · exact ready_other le hs hne h1 h2
      · exact .inl e2
    have k1 : Settled w q t → Settled (w.table le (if b then q2 else q)).2 q t := fun h => settled_table le hs h
    have k2 : Settled w q2 t2 → Settled (w.table le (if b then q2 else q)).2 q2 t2 := fun h => settled_table le hs h
    have hpair : w.table le (if b then q2 else q) = (.ok (if b then t2 else t), (w.table le (if b then q2 else q)).2) :=
      Prod.ext e1 rfl
    generalize (w.table le (if b then q2 else q)).2 = w' at *
    cases hr : r.renderBy (if b then t2 else t) b f with
    | error e => rw [hr] at hy; cases hy
    | ok a =>
      rw [hr] at hy
      have hy := Except.ok.inj hy
      obtain ⟨i1, i2, i3, i4, i5⟩ := ih o' ho' w' hs' g1 g2
      have he : r.mapLoop le q q2 put w ((x, f, b) :: l) =
          ⟨put x a :: (r.mapLoop le q q2 put w' l).maps, (r.mapLoop le q q2 put w' l).error,
            (r.mapLoop le q q2 put w' l).store⟩ := by
        conv_lhs => unfold RunIn.mapLoop
        rw [hpair]
        dsimp only
        rw [hr]
      rw [he]
      dsimp only
      have ho : put x a :: (r.mapLoop le q q2 put w' l).maps = o := by rw [i1, ← hrun', ← hy]
      refine ⟨ho, i2, ⟨by dsimp only; rw [ho]; exact hrun, i3.sound, ?_, ?_⟩, fun h => i4 (k1 h), fun h => i5 (k2 h)⟩
      · intro e he hb'
        rcases List.mem_cons.1 he with rfl | he
        · dsimp only at hb'
          subst hb'
          exact i4 e2
        · exact i3.first e he hb'
      · intro e he hb'
        rcases List.mem_cons.1 he with rfl | he
        · dsimp only at hb'
          subst hb'
          exact i5 e2
        · exact i3.second e he hb'

/-- The settings of a run on two files do not depend on the tables. -/
theorem settings_tables (x : FileIn n k) (y : SecondFile m) (t t2 : Table k) :
    ({ x with table := t, table2 := t2 } : FileIn n k).settingsTwo y =
      (x.settingsTwo y).map fun r => { r with table := t, table2 := t2 } := by
  unfold FileIn.settingsTwo
  generalize hg : Reader.gribInfo x.file x.reader (infoCmd x.sel) = g
  have hg' : Reader.gribInfo x.file ({ x with table := t, table2 := t2 } : FileIn n k).reader (infoCmd x.sel) = g := hg
  dsimp only
  rw [hg']
  obtain ⟨g1, r1⟩ := g
  cases g1 with
  | error e => rfl
  | ok info =>
    dsimp only
    generalize selectCmd x.sel (readerWindow x.tstart x.tend (x.aggr.map AggrOpts.step) info.step info.end_).1
      (readerWindow x.tstart x.tend (x.aggr.map AggrOpts.step) info.step info.end_).2 = kw
    generalize Reader.select x.file r1 kw = s
    obtain ⟨s1, r2⟩ := s
    cases s1 with
    | error e => rfl
    | ok s =>
      dsimp only
      generalize FileIn.firstTime x.file r1 kw = ft
      cases ft with
      | error e => rfl
      | ok _ =>
        dsimp only
        generalize hi : MsgSet.init s.first (x.selectedMv r1 kw) (x.grid s) s.second = i
        have hi' : MsgSet.init s.first (({ x with table := t, table2 := t2 } : FileIn n k).selectedMv r1 kw)
          (({ x with table := t, table2 := t2 } : FileIn n k).grid s) s.second = i := hi
        rw [hi']
        cases i with
        | error e => rfl
        | ok msgs =>
          dsimp only
          generalize hj : x.readSecond y kw = j
          have hj' : ({ x with table := t, table2 := t2 } : FileIn n k).readSecond y kw = j := hj
          rw [hj']
          cases j <;> rfl

namespace CommandRun

/-- the lookup of the table of the second file. -/
def qOf2 (s : Site n k) (ts : TableSite k) (r : Request) (input2 : Str) (a : TableReq) : Lookup k :=
  (ts.method a.parallel r.mode r.latMap r.lonMap input2).lookup a.splits (ts.rows r.latMap)
    { tblRunOf s ts r a with gridId := ts.gridId input2 }

/-- What the program makes of a command with two files on its tables. -/
theorem table_core_two (le : Str → Str → Bool) (ne : NumExpr) (s : Site n k) (ts : TableSite k) (w : Store (Table k))
    (items : List (Spec.Written × Str × JVal)) (r : Spec.Request) (input2 : Str)
    (hcom : Spec.TwoFileCommand s items r input2) (a : TableReq) (hask : TableAsked s ts items a)
    (hfmt : r.format = "pcraster".toList) :
    runIn le ne s ts w (argv items) =
      pcrIn le ne w (qOf s ts r a) (qOf2 s ts r input2 a) (Spec.folder r.outDir)
        ((Spec.runOf s r).settingsTwo (s.second input2).2) := by
  obtain ⟨h, hcwd, hfile, ⟨hW, hK⟩, ⟨h2, hne2⟩, hacc⟩ := hcom
  obtain ⟨d, cmd, b, u, hp, hnoc, hd, ha, hlast, hread, hreq, hctx, hfile, hopt⟩ :=
    CommandRun.command_made s items r h hcwd hfile hW hK hacc
  have htext : asText d "inputFile2" = some input2 := by
    unfold asText; rw [hd _ _ h2]
  have hgiven : given (some input2) = true := by
    cases input2 with
    | nil => exact absurd rfl hne2
    | cons c t => rfl
  have hin : asText d "inputFile" = some r.input := by
    unfold asText; rw [hd _ _ hreq.input]
  have hq := asked_lookup s ts items r a hcwd hask d cmd b hd ha hlast hread hopt
  unfold runIn
  rw [hp]
  dsimp only
  rw [hnoc, if_neg (by decide), hctx]
  dsimp only
  rw [htext, hgiven, hin, Option.getD_some, Option.getD_some, hfile, hq, hq]
  dsimp only
  rw [if_pos (show (defined r (s.commands (Spec.located s.cwd cmd)) b).format = _ from congrArg JVal.str hfmt),
    if_pos rfl]
  rfl

/-- The same for another format. -/
theorem table_core_nc_two (le : Str → Str → Bool) (ne : NumExpr) (s : Site n k) (ts : TableSite k) (w : Store (Table k))
    (items : List (Spec.Written × Str × JVal)) (r : Spec.Request) (input2 : Str)
    (hcom : Spec.TwoFileCommand s items r input2) (a : TableReq) (hask : TableAsked s ts items a)
    (hfmt : r.format ≠ "pcraster".toList) (o : NcOut) (hnc : Spec.NcCommand s items r o) :
    runIn le ne s ts w (argv items) =
      ncIn le ne w (qOf s ts r a) (qOf2 s ts r input2 a) (Spec.runOf s r) (decide (r.format = "netcdf".toList)) o
        ((Spec.runOf s r).settingsTwo (s.second input2).2) := by
  obtain ⟨h, hcwd, hfile, ⟨hW, hK⟩, ⟨h2, hne2⟩, hacc⟩ := hcom
  obtain ⟨d, cmd, b, u, hp, hnoc, hd, ha, hlast, hread, hreq, hctx, hfile, hopt⟩ :=
    CommandRun.command_made s items r h hcwd hfile hW hK hacc
  have ho := nc_out s items r o hnc d cmd b u hlast hread hreq hopt
  have htext : asText d "inputFile2" = some input2 := by
    unfold asText; rw [hd _ _ h2]
  have hgiven : given (some input2) = true := by
    cases input2 with
    | nil => exact absurd rfl hne2
    | cons c t => rfl
  have hin : asText d "inputFile" = some r.input := by
    unfold asText; rw [hd _ _ hreq.input]
  have hq := asked_lookup s ts items r a hcwd hask d cmd b hd ha hlast hread hopt
  unfold runIn
  rw [hp]
  dsimp only
  rw [hnoc, if_neg (by decide), hctx]
  dsimp only
  rw [htext, hgiven, hin, Option.getD_some, Option.getD_some, hfile, hq, hq]
  dsimp only
  rw [if_neg (show ¬ (defined r (s.commands (Spec.located s.cwd cmd)) b).format = _ from
    fun h => hfmt (JVal.str.inj h)), ho]
  dsimp only
  rw [if_pos rfl]
  congr 1
  show decide (JVal.str r.format = _) = _
  rw [decide_eq_decide]
  exact ⟨fun h => JVal.str.inj h, fun h => congrArg _ h⟩

theorem with_tables {s : Site n k} {items : List (Spec.Written × Str × JVal)} {r : Spec.Request} {input2 : Str}
    (h : Spec.TwoFileCommand s items r input2) (t t2 : Table k) :
    Spec.TwoFileCommand (withTables s input2 t t2) items r input2 := by
  obtain ⟨h1, h2, ⟨cmd, h3, h4, h5⟩, h6, h7, h8⟩ := h
  exact ⟨h1, h2, ⟨cmd, h3, h4, { h5 with }⟩, h6, h7, h8⟩

theorem with_tables_nc {s : Site n k} {items : List (Spec.Written × Str × JVal)} {r : Spec.Request} {o : NcOut}
    (h : Spec.NcCommand s items r o) (input2 : Str) (t t2 : Table k) :
    Spec.NcCommand (withTables s input2 t t2) items r o :=
  fun cmd hc => { h cmd hc with }

theorem tables_apart {ts : TableSite k} {r : Request} {input2 : Str} (h : GridsApart ts r.input input2) :
    r.input ≠ input2 := by
  rintro e
  unfold GridsApart at h
  rw [e] at h
  exact h rfl

theorem first_table {s : Site n k} {ts : TableSite k} {r : Request} {input2 : Str} (h : GridsApart ts r.input input2)
    (t t2 : Table k) : t = ((withTables s input2 t t2).tables r.mode r.latMap r.lonMap r.input).1 := by
  show t = (if r.input = input2 then (t2, t2) else (t, t)).1
  rw [if_neg (tables_apart h)]

theorem second_table {s : Site n k} {r : Request} {input2 : Str}
    (t t2 : Table k) : t2 = ((withTables s input2 t t2).tables r.mode r.latMap r.lonMap input2).1 := by
  show t2 = (if input2 = input2 then (t2, t2) else (t, t)).1
  rw [if_pos rfl]

/-- The run with known tables. -/
theorem run_tables {s : Site n k} {ts : TableSite k} {r : Request} {input2 : Str} (h : GridsApart ts r.input input2)
    (t t2 : Table k) : Spec.runOfTwo (withTables s input2 t t2) r input2 =
      { Spec.runOf s r with table := t, table2 := t2 } := by
  have e : ({ Spec.runOf s r with table := t, table2 := t2 } : FileIn n k) =
      { Spec.runOf s r with
        table := ((withTables s input2 t t2).tables r.mode r.latMap r.lonMap r.input).1
        table2 := ((withTables s input2 t t2).tables r.mode r.latMap r.lonMap input2).1 } := by
    rw [← first_table h, ← second_table]
  rw [e]
  rfl

theorem ids_apart {s : Site n k} {ts : TableSite k} {r : Request} {input2 : Str} {a : TableReq}
    (h : GridsApart ts r.input input2) : (qOf2 s ts r input2 a).run.id ≠ (qOf s ts r a).run.id := by
  intro e
  have e : tableId (ts.gridId input2) (ts.target r.latMap r.lonMap) ((tableSuffix r.mode).getD []) =
    tableId (ts.gridId r.input) (ts.target r.latMap r.lonMap) ((tableSuffix r.mode).getD []) := e
  unfold tableId at e
  have e := List.append_cancel_right (List.cons.inj e).2
  exact h e.symm

theorem may_create_two {s : Site n k} {ts : TableSite k} {r : Request} {input2 : Str} {a : TableReq}
    (hacc : Acceptable s.fs r) {w : Store (Table k)} (h : NoTable w ts { r with input := input2 })
    (hc : CanCreate w s ts a) : MayCreate w (qOf2 s ts r input2 a).run := by
  obtain ⟨h1, h2, h3, h4, h5⟩ := may_create (s := s) (r := r)
    (ts := { ts with gridId := fun _ => ts.gridId input2 }) (a := a) hacc (w := w) h { hc with }
  exact ⟨h1, h2, h3, h4, h5⟩

/-- A run on two files whose lookups are ready: the maps of these tables, now and later. -/
theorem ready_run (le : Str → Str → Bool) (global template : Dict Str TblEntry) (w : Store (Table k))
    (hw : Reached le global template w) (r : RunIn n m k) {β γ : Type} (put : γ → Arr k → β)
    (l : List (γ × Field n m × Bool)) (q q2 : Lookup k) (hne : q2.run.id ≠ q.run.id) (t t2 : Table k)
    (h1 : Ready w q t) (h2 : Ready w q2 t2) (o : List β) (hrun : pureMaps r t t2 put l = .ok o) :
    (r.mapLoop le q q2 put w l).maps = o ∧ (r.mapLoop le q q2 put w l).error = none ∧
    ∀ (q' q2' : Lookup k) (h : List (Act (Table k))), q'.run.id = q.run.id → q'.run.userDir = q.run.userDir →
      q2'.run.id = q2.run.id → q2'.run.userDir = q2.run.userDir →
      (r.mapLoop le q' q2' put (after le global template (r.mapLoop le q q2 put w l).store h) l).maps = o ∧
      (r.mapLoop le q' q2' put (after le global template (r.mapLoop le q q2 put w l).store h) l).error = none := by
  obtain ⟨f1, f2, fd, -, -⟩ := ready_loop le r put q q2 hne t t2 l o hrun w hw.sound h1 h2
  refine ⟨f1, f2, fun q' q2' h hid hdir hid2 hdir2 => ?_⟩
  obtain ⟨hg, ht, hu, -⟩ := hw
  have hs' := sound_after le global template hg ht hu fd.sound h
  obtain ⟨-, i2, -⟩ := loop_settled le r put q' q2' t t2 l _ hs'
    (fun e he hb => settled_after le global template hg ht fd.sound (fd.first e he hb) hid hdir h)
    (fun e he hb => settled_after le global template hg ht fd.sound (fd.second e he hb) hid2 hdir2 h)
  exact i2 o hrun

theorem dir_of {s : Site n k} {ts : TableSite k} {r : Request} {a a' : TableReq} (h : a'.dir = a.dir) :
    (tblRunOf s ts r a').userDir = (tblRunOf s ts r a).userDir := by
  show (if a'.dir = [] then none else some a'.dir) = if a.dir = [] then none else some a.dir
  rw [h]

/-- From a command on known tables to a command that creates them: PCRaster. -/
theorem two_pcr_always (le : Str → Str → Bool) (global template : Dict Str TblEntry) (ne : NumExpr) (s : Site n k)
    (ts : TableSite k) (w : Store (Table k)) (hw : Reached le global template w)
    (items : List (Spec.Written × Str × JVal)) (r : Spec.Request) (input2 : Str)
    (hcom : Spec.TwoFileCommand s items r input2) (hfmt : r.format = "pcraster".toList) (a : TableReq)
    (hask : TableAsked s ts items a) (hnew : NoTable w ts r) (hnew2 : NoTable w ts { r with input := input2 })
    (hcan : CanCreate w s ts a) (hap : GridsApart ts r.input input2) (t t2 : Table k)
    (hb : (qOf s ts r a).build = .ok t) (hb2 : (qOf2 s ts r input2 a).build = .ok t2)
    (files : List (Str × (Fin k → Num))) (hne : files ≠ [])
    (hrun : CommandRun.run ne (withTables s input2 t t2) (argv items) = .ended (.ok 0) files)
    (P : List (Spec.Written × Str × JVal) → Prop) :
    EndsAlwaysTwo le global template ne s ts w items r input2 a P (.ended (.ok 0) files) := by
  rw [two_file_command_settings ne (withTables s input2 t t2) items r input2 (with_tables hcom t t2) hfmt,
    run_tables hap] at hrun
  change (match ({ Spec.runOf s r with table := t, table2 := t2 } : FileIn n k).pcrasterTwo ne (s.second input2).2 with
    | .ok files => _
    | .error e => _) = _ at hrun
  have hcore := fun (w : Store (Table k)) (items : List (Spec.Written × Str × JVal)) (a : TableReq) hcom hask =>
    table_core_two le ne s ts w items r input2 hcom a hask hfmt
  cases hp : ({ Spec.runOf s r with table := t, table2 := t2 } : FileIn n k).pcrasterTwo ne (s.second input2).2 with
  | error e =>
    rw [hp] at hrun
    dsimp only at hrun
    injection hrun with h1 h2
    exact absurd h2.symm hne
  | ok files0 =>
    rw [hp] at hrun
    dsimp only at hrun
    injection hrun with _ hfiles
    unfold FileIn.pcrasterTwo at hp
    rw [settings_tables] at hp
    cases hset : (Spec.runOf s r).settingsTwo (s.second input2).2 with
    | error e => rw [hset] at hp; cases hp
    | ok x =>
      rw [hset] at hp hcore
      change ({ x with table := t, table2 := t2 } : RunIn n _ k).pcraster ne = _ at hp
      cases hf : x.fields ne with
      | error e =>
        have hf' : ({ x with table := t, table2 := t2 } : RunIn n _ k).fields ne = .error e := hf
        unfold RunIn.pcraster at hp
        rw [hf'] at hp
        cases hp
      | ok vc =>
        obtain ⟨values, change⟩ := vc
        rw [pcraster_pure ne x t t2 values change hf] at hp
        obtain ⟨f1, f2, f3⟩ := ready_run le global template w hw x _ _ (qOf s ts r a) (qOf2 s ts r input2 a)
          (ids_apart hap) t t2 (.inr ⟨may_create hcom.acceptable hnew hcan, hb⟩)
          (.inr ⟨may_create_two hcom.acceptable hnew2 hcan, hb2⟩) files0 hp
        have key : ∀ w q q2, (x.pcrasterIn le ne w q q2).maps = files0 → (x.pcrasterIn le ne w q q2).error = none →
            pcrIn le ne w q q2 (Spec.folder r.outDir) (.ok x) =
              (.ended (.ok 0) files, (x.pcrasterIn le ne w q q2).store) := by
          intro w q q2 g1 g2
          unfold pcrIn endPcr
          dsimp only
          rw [g1, g2, ← hfiles]
          simp only [join_folder]
        rw [← pcrasterIn_eq le ne w _ _ x values change hf] at f1 f2
        refine ⟨?_, fun items' a' h hcom' hask' hdir _ => ?_⟩
        · rw [hcore w items a hcom hask, key _ _ _ f1 f2]
        · rw [hcore w items a hcom hask, hcore _ items' a' hcom' hask', key w _ _ f1 f2]
          obtain ⟨g1, g2⟩ := f3 (qOf s ts r a') (qOf2 s ts r input2 a') h rfl (dir_of (s := s) (ts := ts) (r := r) hdir)
              rfl (dir_of (s := s) (ts := ts) (r := r) hdir)
          rw [← pcrasterIn_eq le ne w _ _ x values change hf, ← pcrasterIn_eq le ne _ _ _ x values change hf] at g1 g2
          rw [key _ _ _ g1 g2]

/-- The maps for the data set with known tables. -/
theorem maps_pure_two (ne : NumExpr) (r : RunIn n m k) (t t2 : Table k) (values : Dict Step (Field n m))
    (change : Option Step) (h : r.fields ne = .ok (values, change)) :
    ({ r with table := t, table2 := t2 } : RunIn n m k).maps ne =
      pureMaps r t t2 (fun x a => (x, a)) ((gridLoop change false values).map fun p => (p.1.endStep, p.2.1, p.2.2)) := by
  have h' : ({ r with table := t, table2 := t2 } : RunIn n m k).fields ne = .ok (values, change) := h
  unfold RunIn.maps pureMaps writeNetcdf
  rw [h']
  dsimp only
  generalize gridLoop change false values = l
  induction l with
  | nil => rfl
  | cons p l ih =>
    rw [List.map_cons, List.map_cons, List.mapM_cons, List.mapM_cons, ih, renderBy_eq]

/-- From a command on known tables to a command that creates them: netCDF. -/
theorem two_nc_always (le : Str → Str → Bool) (global template : Dict Str TblEntry) (ne : NumExpr) (s : Site n k)
    (ts : TableSite k) (w : Store (Table k)) (hw : Reached le global template w)
    (items : List (Spec.Written × Str × JVal)) (r : Spec.Request) (input2 : Str)
    (hcom : Spec.TwoFileCommand s items r input2) (hfmt : r.format = "netcdf".toList) (a : TableReq)
    (hask : TableAsked s ts items a) (hnew : NoTable w ts r) (hnew2 : NoTable w ts { r with input := input2 })
    (hcan : CanCreate w s ts a) (hap : GridsApart ts r.input input2) (t t2 : Table k)
    (hb : (qOf s ts r a).build = .ok t) (hb2 : (qOf2 s ts r input2 a).build = .ok t2) (o : NcOut)
    (hnc : Spec.NcCommand s items r o) (set : Dataset k)
    (hrun : CommandRun.run ne (withTables s input2 t t2) (argv items) = .stored set) :
    EndsAlwaysTwo le global template ne s ts w items r input2 a (fun items' => NcCommand s items' r o)
      (.stored set) := by
  rw [netcdf_second_iff ne (withTables s input2 t t2) items r input2 (with_tables hcom t t2) hfmt o
    (with_tables_nc hnc input2 t t2) set, run_tables hap] at hrun
  change ({ Spec.runOf s r with table := t, table2 := t2 } : FileIn n k).datasetTwo ne (s.second input2).2 o = _ at hrun
  have hf : r.format ≠ "pcraster".toList := by rw [hfmt]; decide
  have hcore := fun (w : Store (Table k)) (items : List (Spec.Written × Str × JVal)) (a : TableReq) hcom hask hnc =>
    table_core_nc_two le ne s ts w items r input2 hcom a hask hf o hnc
  rw [decide_eq_true hfmt] at hcore
  unfold FileIn.datasetTwo at hrun
  rw [settings_tables] at hrun
  cases hset : (Spec.runOf s r).settingsTwo (s.second input2).2 with
  | error e => rw [hset] at hrun; cases hrun
  | ok x =>
    rw [hset] at hrun hcore
    have hi : ∃ info, (Reader.gribInfo (Spec.runOf s r).file (Spec.runOf s r).reader
        (infoCmd (Spec.runOf s r).sel)).1 = .ok info := by
      unfold FileIn.settingsTwo at hset
      cases hg : Reader.gribInfo (Spec.runOf s r).file (Spec.runOf s r).reader (infoCmd (Spec.runOf s r).sel) with
      | mk i r1 =>
        rw [hg] at hset
        cases i with
        | error e => cases hset
        | ok info => exact ⟨info, rfl⟩
    obtain ⟨info, hi⟩ := hi
    change (match ({ x with table := t, table2 := t2 } : RunIn n _ k).maps ne with
      | .error e => _
      | .ok ms => match (Spec.runOf s r).firstSelected with
        | none => _
        | some m0 => (Spec.runOf s r).record o x m0 ms) = _ at hrun
    cases hm : ({ x with table := t, table2 := t2 } : RunIn n _ k).maps ne with
    | error e => rw [hm] at hrun; cases hrun
    | ok ms =>
      rw [hm] at hrun
      dsimp only at hrun
      cases h0 : (Spec.runOf s r).firstSelected with
      | none => rw [h0] at hrun; cases hrun
      | some m0 =>
        rw [h0] at hrun
        dsimp only at hrun
        cases hf : x.fields ne with
        | error e =>
          have hf' : ({ x with table := t, table2 := t2 } : RunIn n _ k).fields ne = .error e := hf
          unfold RunIn.maps at hm
          rw [hf'] at hm
          cases hm
        | ok vc =>
          obtain ⟨values, change⟩ := vc
          rw [maps_pure_two ne x t t2 values change hf] at hm
          have hIn : ∀ w q q2, x.mapsIn le ne w q q2 = x.mapLoop le q q2 (fun x a => (x, a)) w
              ((gridLoop change false values).map fun p => (p.1.endStep, p.2.1, p.2.2)) := by
            intro w q q2
            unfold RunIn.mapsIn
            rw [hf]
          obtain ⟨f1, f2, f3⟩ := ready_run le global template w hw x _ _ (qOf s ts r a) (qOf2 s ts r input2 a)
            (ids_apart hap) t t2 (.inr ⟨may_create hcom.acceptable hnew hcan, hb⟩)
            (.inr ⟨may_create_two hcom.acceptable hnew2 hcan, hb2⟩) ms hm
          have key : ∀ w q q2, (x.mapsIn le ne w q q2).maps = ms → (x.mapsIn le ne w q q2).error = none →
              ncIn le ne w q q2 (Spec.runOf s r) true o (.ok x) =
                (.stored set, (x.mapsIn le ne w q q2).store) := by
            intro w q q2 g1 g2
            unfold ncIn
            rw [hi]
            dsimp only
            rw [g2, h0]
            dsimp only
            rw [g1, hrun]
          rw [← hIn] at f1 f2
          refine ⟨?_, fun items' a' h hcom' hask' hdir hnc' => ?_⟩
          · rw [hcore w items a hcom hask hnc, key _ _ _ f1 f2]
          · rw [hcore w items a hcom hask hnc, hcore _ items' a' hcom' hask' hnc', key w _ _ f1 f2]
            obtain ⟨g1, g2⟩ := f3 (qOf s ts r a') (qOf2 s ts r input2 a') h rfl (dir_of (s := s) (ts := ts) (r := r) hdir)
              rfl (dir_of (s := s) (ts := ts) (r := r) hdir)
            rw [← hIn, ← hIn] at g1 g2
            rw [key _ _ _ g1 g2]

end CommandRun

/-! ## C175: PCRaster maps -/

/-- **C175**, accumulation. A command with two input files on different grids that creates both tables (`-B`; files,
options and selection as in C155): in every cell the maps hold what the method gives for the grid of their file (C167),
and every later command with the same request, with or without `-B`, after whatever other runs and restarts, ends in the
same way. -/
theorem command_tables_accumulation_run (le : Str → Str → Bool) (global template : Dict Str TblEntry) (ne : NumExpr)
    (s : Site n k) (ts : TableSite k) (w : Store (Table k)) (hw : Reached le global template w)
    (items : List (Spec.Written × Str × JVal))
    (r : Spec.Request) (input2 : Str) (hcom : Spec.TwoFileCommand s items r input2) (hfmt : r.format = "pcraster".toList)
    (hpre : r.namePrefix ≠ [] ∧ r.namePrefix.head? ≠ some '/')
    (f : Num → Num) (mv : ℚ) (file : List (GMsg (Arr n))) (hfile : s.grib r.input = (file, true))
    {m : Nat} (file2 : List (GMsg (Arr m))) (hfile2 : s.second input2 = ⟨m, ⟨file2, true⟩⟩)
    (hup : r.shortName.map Char.toUpper ≠ r.shortName) (a : Int) (half forced : Bool)
    (hagg : r.aggr = some ⟨a, "accumulation", half, forced⟩) (hpos : 0 < a)
    (p : SelPar) (hp : p = ⟨r.shortName, r.level, r.dataTime, r.dataDate, r.member⟩)
    (E : Int) (hE : Spec.LastStep file p E) (hreg : Spec.StepsDiffer file p) (start hi : Int)
    (hst : start = r.tstart.getD 0) (hhi : hi = Spec.windowEnd r.tend E)
    (sel : List (GMsg (Arr n))) (hsel : sel = Spec.taken file p (max 0 (start - a)) hi) (hne : sel ≠ [])
    (sel2 : List (GMsg (Arr m))) (hsel2 : sel2 = Spec.taken file2 p (max 0 (start - a)) hi)
    (nj : Int) (hnj : ∀ q ∈ sel, q.nj = nj) (hdiff : (sel.map GMsg.endStep).Nodup)
    (nj2 : Int) (hnj2 : ∀ q ∈ sel2, q.nj = nj2) (hdiff2 : (sel2.map GMsg.endStep).Nodup)
    (hmv : ∀ q ∈ sel, q.missingValue = .fin mv) (hdate : ∀ q ∈ sel, (Spec.reference q).isSome = true)
    (hdate2 : ∀ q ∈ sel2, (Spec.reference q).isSome = true)
    (hconv : Means ne (r.conversion.map fun c => some c.1) f)
    (b : TableReq) (hask : TableAsked s ts items b) (hnew : NoTable w ts r)
    (hnew2 : NoTable w ts { r with input := input2 }) (hcan : CanCreate w s ts b) (hap : GridsApart ts r.input input2)
    (hrows : (ts.rows r.latMap).flatten = List.finRange k) (g : Grids n k)
    (hg : Answers b.splits (ts.rows r.latMap) (ts.method b.parallel r.mode r.latMap r.lonMap r.input) g)
    (g2 : Grids m k)
    (hg2 : Answers b.splits (ts.rows r.latMap) (ts.method b.parallel r.mode r.latMap r.lonMap input2) g2)
    (c : GMsg (Arr m)) (hc : c ∈ sel2) (hcmin : ∀ q ∈ sel2, c.endStep ≤ q.endStep)
    (hse : c.startStep ≤ c.endStep) (h0 : 0 ≤ c.endStep) (hend : c.endStep + a < hi)
    (hcur : ∀ t, Spec.InRange (Spec.firstEnd start a) c.startStep a t →
      (∃ q ∈ sel, q.endStep = t) ∧ (t - a = 0 ∨ ∃ q ∈ sel, q.endStep = t - a))
    (hcur2 : ∀ t, Spec.InRange (c.endStep + a) hi a t →
      (∃ q ∈ sel2, q.endStep = t) ∧ (t - a = 0 ∨ ∃ q ∈ sel2, q.endStep = t - a)) :
    ∃ (R : Arr n → Fin k → Num) (R2 : Arr m → Fin k → Num) (files : List (Str × (Fin k → Num))) (n1 n2 : Nat),
      Gives (s.mvOf r.latMap) R g ∧ Gives (s.mvOf r.latMap) R2 g2 ∧
      EndsAlwaysTwo le global template ne s ts w items r input2 b (fun _ => True) (.ended (.ok 0) files) ∧ files.length = n1 + n2 ∧
      (∀ j : Nat, j < n1 ↔ Spec.firstEnd start a + j * a ≤ c.startStep) ∧
      (∀ j : Nat, j < n2 ↔ c.endStep + a + j * a ≤ hi) ∧
      (∀ (j : Nat) u, u = Spec.firstEnd start a + j * a → u ≤ c.startStep →
        ∃ D, Spec.AccumulatedFrom mv f sel forced r.unitTime a u D ∧
          files[j]? = some (Spec.folder r.outDir ++ pcrName r.namePrefix r.fmap r.ext (j + 1), fun i =>
            shown (s.clone r.clone).1 (s.clone r.clone).2
              (finalCell (r.correction.map fun q => (s.heights q.1 q.2.1 q.2.2).1) (R
                (Spec.cutField ((r.conversion.map Prod.snd).getD false) D) i) i) i)) ∧
      ∀ (j : Nat) u, u = c.endStep + a + j * a → u ≤ hi →
        ∃ D, Spec.AccumulatedFrom mv f sel2 forced r.unitTime a u D ∧
          files[n1 + j]? = some (Spec.folder r.outDir ++ pcrName r.namePrefix r.fmap r.ext ((n1 : Int) + j + 1), fun i =>
            shown (s.clone r.clone).1 (s.clone r.clone).2
              (finalCell (r.correction.map fun q => (s.heights q.1 q.2.1 q.2.2).2) (R2
                (Spec.cutField ((r.conversion.map Prod.snd).getD false) D) i) i) i) := by
  obtain ⟨t, hb, hfit, hgives⟩ := method_table (s.mvOf r.latMap) b.splits (ts.rows r.latMap) hrows _ g hg
  obtain ⟨t2, hb2, hfit2, hgives2⟩ := method_table (s.mvOf r.latMap) b.splits (ts.rows r.latMap) hrows _ g2 hg2
  obtain ⟨files, n1, n2, h1, h2, h3, h4, h5, h6⟩ := two_file_command_accumulation_run
    ne (withTables s input2 t t2) items r input2 (with_tables hcom t t2) hfmt hpre f mv file hfile file2 hfile2
      hup a half forced hagg hpos p hp E hE hreg start hi hst hhi sel hsel hne sel2 hsel2 nj hnj hdiff nj2 hnj2
      hdiff2 hmv hdate hdate2 hconv t (first_table hap t t2) hfit t2 (second_table t t2) hfit2 c hc hcmin hse h0
      hend hcur hcur2
  have hfiles : files ≠ [] := by
    intro h
    rw [h, List.length_nil] at h2
    have h4 := (h4 0).2 (by simpa using hend.le)
    omega
  exact ⟨_, _, files, n1, n2, hgives, hgives2, two_pcr_always le global template ne s ts w hw items r input2 hcom hfmt b
    hask hnew hnew2 hcan hap t t2 hb hb2 files hfiles h1 _, h2, h3, h4, h5, h6⟩

/-- **C175**, average (see C155). -/
theorem command_tables_average_run (le : Str → Str → Bool) (global template : Dict Str TblEntry) (ne : NumExpr)
    (s : Site n k) (ts : TableSite k) (w : Store (Table k)) (hw : Reached le global template w)
    (items : List (Spec.Written × Str × JVal))
    (r : Spec.Request) (input2 : Str) (hcom : Spec.TwoFileCommand s items r input2) (hfmt : r.format = "pcraster".toList)
    (hpre : r.namePrefix ≠ [] ∧ r.namePrefix.head? ≠ some '/')
    (f : Num → Num) (mv : ℚ) (file : List (GMsg (Arr n))) (hfile : s.grib r.input = (file, true))
    {m : Nat} (file2 : List (GMsg (Arr m))) (hfile2 : s.second input2 = ⟨m, ⟨file2, true⟩⟩)
    (hup : r.shortName.map Char.toUpper ≠ r.shortName) (a : Int) (forced : Bool)
    (hagg : r.aggr = some ⟨a, "average", false, forced⟩) (hpos : 0 < a)
    (hinst : ∀ q ∈ file, String.ofList q.stepType ≠ "accum")
    (p : SelPar) (hp : p = ⟨r.shortName, r.level, r.dataTime, r.dataDate, r.member⟩)
    (E : Int) (hE : Spec.LastStep file p E) (hreg : Spec.StepsDiffer file p) (start hi : Int)
    (hst : start = r.tstart.getD 0) (hstart : start ≠ 0) (hhi : hi = Spec.windowEnd r.tend E)
    (sel : List (GMsg (Arr n))) (hsel : sel = Spec.taken file p (max 0 (start - a)) hi)
    (sel2 : List (GMsg (Arr m))) (hsel2 : sel2 = Spec.taken file2 p (max 0 (start - a)) hi)
    (nj : Int) (hnj : ∀ q ∈ sel, q.nj = nj) (hdiff : (sel.map GMsg.endStep).Nodup)
    (nj2 : Int) (hnj2 : ∀ q ∈ sel2, q.nj = nj2) (hdiff2 : (sel2.map GMsg.endStep).Nodup)
    (hmv : ∀ q ∈ sel, q.missingValue = .fin mv) (hdate : ∀ q ∈ sel, (Spec.reference q).isSome = true)
    (hdate2 : ∀ q ∈ sel2, (Spec.reference q).isSome = true)
    (hconv : Means ne (r.conversion.map fun c => some c.1) f)
    (b : TableReq) (hask : TableAsked s ts items b) (hnew : NoTable w ts r)
    (hnew2 : NoTable w ts { r with input := input2 }) (hcan : CanCreate w s ts b) (hap : GridsApart ts r.input input2)
    (hrows : (ts.rows r.latMap).flatten = List.finRange k) (g : Grids n k)
    (hg : Answers b.splits (ts.rows r.latMap) (ts.method b.parallel r.mode r.latMap r.lonMap r.input) g)
    (g2 : Grids m k)
    (hg2 : Answers b.splits (ts.rows r.latMap) (ts.method b.parallel r.mode r.latMap r.lonMap input2) g2)
    (c : GMsg (Arr m)) (hc : c ∈ sel2) (hcmin : ∀ q ∈ sel2, c.endStep ≤ q.endStep)
    (hse : c.startStep ≤ c.endStep) (h0 : 0 ≤ c.endStep) (hend : c.endStep + a < hi)
    (hex : ∃ q ∈ sel, c.startStep ≤ q.endStep) (hex2 : ∃ q ∈ sel2, hi ≤ q.endStep) :
    ∃ (R : Arr n → Fin k → Num) (R2 : Arr m → Fin k → Num) (files : List (Str × (Fin k → Num))) (n1 n2 : Nat),
      Gives (s.mvOf r.latMap) R g ∧ Gives (s.mvOf r.latMap) R2 g2 ∧
      EndsAlwaysTwo le global template ne s ts w items r input2 b (fun _ => True) (.ended (.ok 0) files) ∧ files.length = n1 + n2 ∧
      (∀ j : Nat, j < n1 ↔ start + j * a ≤ c.startStep) ∧
      (∀ j : Nat, j < n2 ↔ c.endStep + a + j * a ≤ hi) ∧
      (∀ (j : Nat) u, u = start + j * a → u ≤ c.startStep →
        ∃ D, Spec.MeanFrom mv f sel a u D ∧
          files[j]? = some (Spec.folder r.outDir ++ pcrName r.namePrefix r.fmap r.ext (j + 1), fun i =>
            shown (s.clone r.clone).1 (s.clone r.clone).2
              (finalCell (r.correction.map fun q => (s.heights q.1 q.2.1 q.2.2).1) (R
                (Spec.cutField ((r.conversion.map Prod.snd).getD false) D) i) i) i)) ∧
      ∀ (j : Nat) u, u = c.endStep + a + j * a → u ≤ hi →
        ∃ D, Spec.MeanFrom mv f sel2 a u D ∧
          files[n1 + j]? = some (Spec.folder r.outDir ++ pcrName r.namePrefix r.fmap r.ext ((n1 : Int) + j + 1), fun i =>
            shown (s.clone r.clone).1 (s.clone r.clone).2
              (finalCell (r.correction.map fun q => (s.heights q.1 q.2.1 q.2.2).2) (R2
                (Spec.cutField ((r.conversion.map Prod.snd).getD false) D) i) i) i) := by
  obtain ⟨t, hb, hfit, hgives⟩ := method_table (s.mvOf r.latMap) b.splits (ts.rows r.latMap) hrows _ g hg
  obtain ⟨t2, hb2, hfit2, hgives2⟩ := method_table (s.mvOf r.latMap) b.splits (ts.rows r.latMap) hrows _ g2 hg2
  obtain ⟨files, n1, n2, h1, h2, h3, h4, h5, h6⟩ := two_file_command_average_run
    ne (withTables s input2 t t2) items r input2 (with_tables hcom t t2) hfmt hpre f mv file hfile file2 hfile2
      hup a forced hagg hpos hinst p hp E hE hreg start hi hst hstart hhi sel hsel sel2 hsel2 nj hnj hdiff nj2
      hnj2 hdiff2 hmv hdate hdate2 hconv t (first_table hap t t2) hfit t2 (second_table t t2) hfit2 c hc hcmin
      hse h0 hend hex hex2
  have hfiles : files ≠ [] := by
    intro h
    rw [h, List.length_nil] at h2
    have h4 := (h4 0).2 (by simpa using hend.le)
    omega
  exact ⟨_, _, files, n1, n2, hgives, hgives2, two_pcr_always le global template ne s ts w hw items r input2 hcom hfmt b
    hask hnew hnew2 hcan hap t t2 hb hb2 files hfiles h1 _, h2, h3, h4, h5, h6⟩

/-! ## C176: data sets -/

/-- **C176**, accumulation: the same with netCDF output (C166): one data set, and later commands store the same one. -/
theorem command_tables_netcdf_accumulation (le : Str → Str → Bool) (global template : Dict Str TblEntry) (ne : NumExpr)
    (s : Site n k) (ts : TableSite k) (w : Store (Table k)) (hw : Reached le global template w)
    (items : List (Spec.Written × Str × JVal))
    (r : Spec.Request) (input2 : Str) (hcom : Spec.TwoFileCommand s items r input2)
    (hfmt : r.format = "netcdf".toList) (o : NcOut) (hnc : Spec.NcCommand s items r o) {fmt : ValueFormat}
    {scale offset : ℚ} {lo up : Option ℚ} (ho : NcMeans o fmt scale offset lo up) (req : Option Str)
    (hreq : unitAsked o.stepUnits req)
    (f : Num → Num) (mv : ℚ) (file : List (GMsg (Arr n))) (hfile : s.grib r.input = (file, true))
    {m : Nat} (file2 : List (GMsg (Arr m))) (hfile2 : s.second input2 = ⟨m, ⟨file2, true⟩⟩)
    (hup : r.shortName.map Char.toUpper ≠ r.shortName) (a : Int) (half forced : Bool)
    (hagg : r.aggr = some ⟨a, "accumulation", half, forced⟩) (hpos : 0 < a)
    (p : SelPar) (hp : p = ⟨r.shortName, r.level, r.dataTime, r.dataDate, r.member⟩)
    (E : Int) (hE : Spec.LastStep file p E) (hreg : Spec.StepsDiffer file p) (start hi : Int)
    (hst : start = r.tstart.getD 0) (hhi : hi = Spec.windowEnd r.tend E)
    (sel : List (GMsg (Arr n))) (hsel : sel = Spec.taken file p (max 0 (start - a)) hi) (hne : sel ≠ [])
    (sel2 : List (GMsg (Arr m))) (hsel2 : sel2 = Spec.taken file2 p (max 0 (start - a)) hi)
    (nj : Int) (hnj : ∀ q ∈ sel, q.nj = nj) (hdiff : (sel.map GMsg.endStep).Nodup)
    (nj2 : Int) (hnj2 : ∀ q ∈ sel2, q.nj = nj2) (hdiff2 : (sel2.map GMsg.endStep).Nodup)
    (hmv : ∀ q ∈ sel, q.missingValue = .fin mv) (ref : Int × Nat) (href : ∀ q ∈ sel, reference q = some ref)
    (u : Str) (hu : ∀ q ∈ sel, q.get? "stepUnits".toList = some (.str u)) (hk : ∃ name, (u, name) ∈ gribUnits)
    (hdate2 : ∀ q ∈ sel2, (reference q).isSome = true)
    (hconv : Means ne (r.conversion.map fun c => some c.1) f)
    (b : TableReq) (hask : TableAsked s ts items b) (hnew : NoTable w ts r)
    (hnew2 : NoTable w ts { r with input := input2 }) (hcan : CanCreate w s ts b) (hap : GridsApart ts r.input input2)
    (hrows : (ts.rows r.latMap).flatten = List.finRange k) (g : Grids n k)
    (hg : Answers b.splits (ts.rows r.latMap) (ts.method b.parallel r.mode r.latMap r.lonMap r.input) g)
    (g2 : Grids m k)
    (hg2 : Answers b.splits (ts.rows r.latMap) (ts.method b.parallel r.mode r.latMap r.lonMap input2) g2)
    (c : GMsg (Arr m)) (hc : c ∈ sel2) (hcmin : ∀ q ∈ sel2, c.endStep ≤ q.endStep)
    (hse : c.startStep ≤ c.endStep) (h0 : 0 ≤ c.endStep) (hend : c.endStep + a < hi)
    (hcur : ∀ t, InRange (firstEnd start a) c.startStep a t →
      (∃ q ∈ sel, q.endStep = t) ∧ (t - a = 0 ∨ ∃ q ∈ sel, q.endStep = t - a))
    (hcur2 : ∀ t, InRange (c.endStep + a) hi a t →
      (∃ q ∈ sel2, q.endStep = t) ∧ (t - a = 0 ∨ ∃ q ∈ sel2, q.endStep = t - a))
    (mask : Fin k → Bool) (hmask : (s.clone r.clone).1 = some mask) :
    ∃ (R : Arr n → Fin k → Num) (R2 : Arr m → Fin k → Num) (d : Dataset k) (times : List Int) (n1 n2 : Nat),
      Gives (s.mvOf r.latMap) R g ∧ Gives (s.mvOf r.latMap) R2 g2 ∧
      EndsAlwaysTwo le global template ne s ts w items r input2 b (fun items' => NcCommand s items' r o) (.stored d) ∧
      Describes d o r.namePrefix ref fmt scale offset lo up ∧ TimesIn u req times d.time ∧
      times.length = n1 + n2 ∧ d.records.length = n1 + n2 ∧
      (∀ j : Nat, j < n1 ↔ firstEnd start a + j * a ≤ c.startStep) ∧
      (∀ j : Nat, j < n2 ↔ c.endStep + a + j * a ≤ hi) ∧
      (∀ (j : Nat) w, w = firstEnd start a + j * a → w ≤ c.startStep → times[j]? = some w ∧
        ∃ D rec, AccumulatedFrom mv f sel forced r.unitTime a w D ∧ d.records[j]? = some rec ∧
          ∀ i V, V = finalCell (r.correction.map fun q => (s.heights q.1 q.2.1 q.2.2).1) (R
              (Spec.cutField ((r.conversion.map Prod.snd).getD false) D) i) i →
            Shows d lo up (mask i = true ∨ V = s.mvOf r.latMap) V (rec i)) ∧
      ∀ (j : Nat) w, w = c.endStep + a + j * a → w ≤ hi → times[n1 + j]? = some w ∧
        ∃ D rec, AccumulatedFrom mv f sel2 forced r.unitTime a w D ∧ d.records[n1 + j]? = some rec ∧
          ∀ i V, V = finalCell (r.correction.map fun q => (s.heights q.1 q.2.1 q.2.2).2) (R2
              (Spec.cutField ((r.conversion.map Prod.snd).getD false) D) i) i →
            Shows d lo up (mask i = true ∨ V = s.mvOf r.latMap) V (rec i) := by
  obtain ⟨t, hb, hfit, hgives⟩ := method_table (s.mvOf r.latMap) b.splits (ts.rows r.latMap) hrows _ g hg
  obtain ⟨t2, hb2, hfit2, hgives2⟩ := method_table (s.mvOf r.latMap) b.splits (ts.rows r.latMap) hrows _ g2 hg2
  obtain ⟨d, times, n1, n2, h1, h2⟩ := two_file_command_netcdf_accumulation
    ne (withTables s input2 t t2) items r input2 (with_tables hcom t t2) hfmt o (with_tables_nc hnc input2 t t2)
      ho req hreq f mv file hfile file2 hfile2 hup a half forced hagg hpos p hp E hE hreg start hi hst hhi sel
      hsel hne sel2 hsel2 nj hnj hdiff nj2 hnj2 hdiff2 hmv ref href u hu hk hdate2 hconv t
      (first_table hap t t2) hfit t2 (second_table t t2) hfit2 c hc hcmin hse h0 hend hcur hcur2 mask hmask
  exact ⟨_, _, d, times, n1, n2, hgives, hgives2, two_nc_always le global template ne s ts w hw items r input2 hcom hfmt b
    hask hnew hnew2 hcan hap t t2 hb hb2 o hnc d h1, h2⟩

/-- **C176**, average. -/
theorem command_tables_netcdf_average (le : Str → Str → Bool) (global template : Dict Str TblEntry) (ne : NumExpr)
    (s : Site n k) (ts : TableSite k) (w : Store (Table k)) (hw : Reached le global template w)
    (items : List (Spec.Written × Str × JVal))
    (r : Spec.Request) (input2 : Str) (hcom : Spec.TwoFileCommand s items r input2)
    (hfmt : r.format = "netcdf".toList) (o : NcOut) (hnc : Spec.NcCommand s items r o) {fmt : ValueFormat}
    {scale offset : ℚ} {lo up : Option ℚ} (ho : NcMeans o fmt scale offset lo up) (req : Option Str)
    (hreq : unitAsked o.stepUnits req)
    (f : Num → Num) (mv : ℚ) (file : List (GMsg (Arr n))) (hfile : s.grib r.input = (file, true))
    {m : Nat} (file2 : List (GMsg (Arr m))) (hfile2 : s.second input2 = ⟨m, ⟨file2, true⟩⟩)
    (hup : r.shortName.map Char.toUpper ≠ r.shortName) (a : Int) (forced : Bool)
    (hagg : r.aggr = some ⟨a, "average", false, forced⟩) (hpos : 0 < a)
    (hinst : ∀ q ∈ file, String.ofList q.stepType ≠ "accum")
    (p : SelPar) (hp : p = ⟨r.shortName, r.level, r.dataTime, r.dataDate, r.member⟩)
    (E : Int) (hE : Spec.LastStep file p E) (hreg : Spec.StepsDiffer file p) (start hi : Int)
    (hst : start = r.tstart.getD 0) (hstart : start ≠ 0) (hhi : hi = Spec.windowEnd r.tend E)
    (sel : List (GMsg (Arr n))) (hsel : sel = Spec.taken file p (max 0 (start - a)) hi)
    (sel2 : List (GMsg (Arr m))) (hsel2 : sel2 = Spec.taken file2 p (max 0 (start - a)) hi)
    (nj : Int) (hnj : ∀ q ∈ sel, q.nj = nj) (hdiff : (sel.map GMsg.endStep).Nodup)
    (nj2 : Int) (hnj2 : ∀ q ∈ sel2, q.nj = nj2) (hdiff2 : (sel2.map GMsg.endStep).Nodup)
    (hmv : ∀ q ∈ sel, q.missingValue = .fin mv) (ref : Int × Nat) (href : ∀ q ∈ sel, reference q = some ref)
    (u : Str) (hu : ∀ q ∈ sel, q.get? "stepUnits".toList = some (.str u)) (hk : ∃ name, (u, name) ∈ gribUnits)
    (hdate2 : ∀ q ∈ sel2, (reference q).isSome = true)
    (hconv : Means ne (r.conversion.map fun c => some c.1) f)
    (b : TableReq) (hask : TableAsked s ts items b) (hnew : NoTable w ts r)
    (hnew2 : NoTable w ts { r with input := input2 }) (hcan : CanCreate w s ts b) (hap : GridsApart ts r.input input2)
    (hrows : (ts.rows r.latMap).flatten = List.finRange k) (g : Grids n k)
    (hg : Answers b.splits (ts.rows r.latMap) (ts.method b.parallel r.mode r.latMap r.lonMap r.input) g)
    (g2 : Grids m k)
    (hg2 : Answers b.splits (ts.rows r.latMap) (ts.method b.parallel r.mode r.latMap r.lonMap input2) g2)
    (c : GMsg (Arr m)) (hc : c ∈ sel2) (hcmin : ∀ q ∈ sel2, c.endStep ≤ q.endStep)
    (hse : c.startStep ≤ c.endStep) (h0 : 0 ≤ c.endStep) (hend : c.endStep + a < hi)
    (hex : ∃ q ∈ sel, c.startStep ≤ q.endStep) (hex2 : ∃ q ∈ sel2, hi ≤ q.endStep)
    (mask : Fin k → Bool) (hmask : (s.clone r.clone).1 = some mask) :
    ∃ (R : Arr n → Fin k → Num) (R2 : Arr m → Fin k → Num) (d : Dataset k) (times : List Int) (n1 n2 : Nat),
      Gives (s.mvOf r.latMap) R g ∧ Gives (s.mvOf r.latMap) R2 g2 ∧
      EndsAlwaysTwo le global template ne s ts w items r input2 b (fun items' => NcCommand s items' r o) (.stored d) ∧
      Describes d o r.namePrefix ref fmt scale offset lo up ∧ TimesIn u req times d.time ∧
      times.length = n1 + n2 ∧ d.records.length = n1 + n2 ∧
      (∀ j : Nat, j < n1 ↔ start + j * a ≤ c.startStep) ∧
      (∀ j : Nat, j < n2 ↔ c.endStep + a + j * a ≤ hi) ∧
      (∀ (j : Nat) w, w = start + j * a → w ≤ c.startStep → times[j]? = some w ∧
        ∃ D rec, MeanFrom mv f sel a w D ∧ d.records[j]? = some rec ∧
          ∀ i V, V = finalCell (r.correction.map fun q => (s.heights q.1 q.2.1 q.2.2).1) (R
              (Spec.cutField ((r.conversion.map Prod.snd).getD false) D) i) i →
            Shows d lo up (mask i = true ∨ V = s.mvOf r.latMap) V (rec i)) ∧
      ∀ (j : Nat) w, w = c.endStep + a + j * a → w ≤ hi → times[n1 + j]? = some w ∧
        ∃ D rec, MeanFrom mv f sel2 a w D ∧ d.records[n1 + j]? = some rec ∧
          ∀ i V, V = finalCell (r.correction.map fun q => (s.heights q.1 q.2.1 q.2.2).2) (R2
              (Spec.cutField ((r.conversion.map Prod.snd).getD false) D) i) i →
            Shows d lo up (mask i = true ∨ V = s.mvOf r.latMap) V (rec i) := by
  obtain ⟨t, hb, hfit, hgives⟩ := method_table (s.mvOf r.latMap) b.splits (ts.rows r.latMap) hrows _ g hg
  obtain ⟨t2, hb2, hfit2, hgives2⟩ := method_table (s.mvOf r.latMap) b.splits (ts.rows r.latMap) hrows _ g2 hg2
  obtain ⟨d, times, n1, n2, h1, h2⟩ := two_file_command_netcdf_average
    ne (withTables s input2 t t2) items r input2 (with_tables hcom t t2) hfmt o (with_tables_nc hnc input2 t t2)
      ho req hreq f mv file hfile file2 hfile2 hup a forced hagg hpos hinst p hp E hE hreg start hi hst hstart
      hhi sel hsel sel2 hsel2 nj hnj hdiff nj2 hnj2 hdiff2 hmv ref href u hu hk hdate2 hconv t
      (first_table hap t t2) hfit t2 (second_table t t2) hfit2 c hc hcmin hse h0 hend hex hex2 mask hmask
  exact ⟨_, _, d, times, n1, n2, hgives, hgives2, two_nc_always le global template ne s ts w hw items r input2 hcom hfmt b
    hask hnew hnew2 hcan hap t t2 hb hb2 o hnc d h1, h2⟩

namespace Demo

/-- The first file has the site of `cellSite`, the second file the messages `two`, with one point. -/
def pairSite (cmd : CmdFile) (one : List (GMsg (Arr 2))) (two : List (GMsg (Arr 1))) (mask : Option (Fin 250 → Bool)) :
    Site 2 250 := { cellSite cmd one mask with second := fun _ => ⟨1, ⟨two, true⟩⟩ }

/-- the GRIB library finds this point for every cell. -/
def pairMethod (file : Str) : Method 250 :=
  .gribNearest true false (fun _ _ => some (if file = "after.grb".toList then 0 else 1)) .nan 250 fun _ => ⟨.fin 45, .fin 9⟩

/-- the grids of the two files. -/
def pairTables : TableSite 250 :=
  { cellTables with
    method := fun _ _ _ _ file => pairMethod file
    gridId := fun file => if file = "after.grb".toList then "fine".toList else "grid".toList }

theorem pair_coords : HasCoords .nan ⟨.fin 45, .fin 9⟩ := ⟨9, rfl, by norm_num, by intro h; cases h⟩

theorem pair_answers (file : Str) (h : file ≠ "after.grb".toList) :
    Answers (n := 2) none [List.finRange 250] (pairMethod file) (.found fun _ => some 1) := by
  refine ⟨?_, fun c => ⟨(by intro h; cases h), fun _ => ?_, fun h => absurd pair_coords h⟩⟩
  · exact (show 250 ≤ 250 from le_refl _)
  · rw [if_neg h]; rfl

theorem pair_answers2 : Answers (n := 1) none [List.finRange 250] (pairMethod "after.grb".toList) (.found fun _ => some 0) := by
  refine ⟨?_, fun c => ⟨(by intro h; cases h), fun _ => ?_, fun h => absurd pair_coords h⟩⟩
  · exact (show 250 ≤ 250 from le_refl _)
  · rw [if_pos rfl]; rfl

/-- the command line of `makeItems`, with a second file. -/
def pairItems : List (Spec.Written × Str × JVal) :=
  makeItems ++ [(.apart "-I".toList "after.grb".toList, "inputFile2".toList, .str "after.grb".toList)]

example : argv pairItems =
    ["-c", "./cmd.json", "--inputFile=rain.grb", "-s12", "-o", "out", "-B", "-I", "after.grb"].map String.toList := rfl

theorem pair_asked (cmd : CmdFile) (hcmd : inJson cmd.base .intertableDir = .null) (one : List (GMsg (Arr 2)))
    (two : List (GMsg (Arr 1))) (mask : Option (Fin 250 → Bool)) :
    TableAsked (pairSite cmd one two mask) pairTables pairItems ⟨true, "/t/".toList, none, false⟩ where
  create := Or.inl ⟨rainItems, _, [(.apart "-I".toList "after.grb".toList, "inputFile2".toList, .str "after.grb".toList)],
    rfl, by decide⟩
  parallel := Or.inr ⟨absent_append (absent_append (rain_absent _ (by decide +kernel)) (by decide)) (by decide), rfl⟩
  file := by
    intro c _
    refine ⟨?_, rfl⟩
    show Chosen pairItems cmd.base _ _ _ _
    refine Or.inr ⟨absent_append (absent_append (rain_absent _ (by decide +kernel)) (by decide)) (by decide), ?_, ?_⟩
    · rw [hcmd]; exact Or.inl (by decide +kernel)
    · rw [hcmd]; rfl

theorem pair_command (ag : JAggr × JVal) (ao : AggrOpts) (h : Spec.AggrIn (some ag) (some ao)) (one : List (GMsg (Arr 2)))
    (two : List (GMsg (Arr 1))) (mask : Option (Fin 250 → Bool)) :
    Spec.TwoFileCommand (pairSite (twoCmd (.str "30".toList) (some ag)) one two mask) pairItems
      (twoReq (some 30) (some ao)) "after.grb".toList := by
  refine with_second (with_create (items := rainItems) ?_) "after.grb".toList (by decide) (by decide)
  obtain ⟨h1, h2, ⟨cmd, h3, h4, h5⟩, h6, h7⟩ := grid_command (some ag) (some ao) h
  exact ⟨h1, h2, ⟨cmd, h3, h4, { h5 with }⟩, h6, { h7 with }⟩

theorem pair_nc_command (ag : JAggr × JVal) (ao : AggrOpts) (h : Spec.AggrIn (some ag) (some ao)) (one : List (GMsg (Arr 2)))
    (two : List (GMsg (Arr 1))) (mask : Option (Fin 250 → Bool)) :
    Spec.TwoFileCommand (pairSite ((gridNcSite ag).commands []) one two mask) pairItems (gridNcReq ao)
      "after.grb".toList := by
  refine with_second (with_create (items := rainItems) ?_) "after.grb".toList (by decide) (by decide)
  obtain ⟨h1, h2, ⟨cmd, h3, h4, h5⟩, h6, h7⟩ := grid_nc_command ag ao h
  exact ⟨h1, h2, ⟨cmd, h3, h4, { h5 with }⟩, h6, { h7 with }⟩

theorem pair_nc_asked (ag : JAggr × JVal) (ao : AggrOpts) (one : List (GMsg (Arr 2)))
    (two : List (GMsg (Arr 1))) (mask : Option (Fin 250 → Bool)) :
    Spec.NcCommand (pairSite ((gridNcSite ag).commands []) one two mask) pairItems (gridNcReq ao) (valuesNcAsked ao) := by
  intro cmd _
  obtain ⟨cmd, h1, -⟩ := rain_command.file
  have h := grid_nc_asked ag ao cmd h1
  exact {
    path := h.path
    longName := h.longName
    unit := h.unit
    float := rfl
    overflow := rfl
    stepUnits := chosen_append (chosen_append h.stepUnits (by decide)) (by decide)
    validMin := chosen_append (chosen_append h.validMin (by decide)) (by decide)
    validMax := chosen_append (chosen_append h.validMax (by decide)) (by decide)
    valueFormat := chosen_append (chosen_append h.valueFormat (by decide)) (by decide)
    offset := chosen_append (chosen_append h.offset (by decide)) (by decide)
    scaleFactor := chosen_append (chosen_append h.scaleFactor (by decide)) (by decide) }

theorem pair_apart : GridsApart pairTables "rain.grb".toList "after.grb".toList := by
  unfold GridsApart
  decide +kernel

theorem pair_rows (lat : Str) : (pairTables.rows lat).flatten = List.finRange 250 := List.append_nil _

theorem pair_create (cmd : CmdFile) (one : List (GMsg (Arr 2))) (two : List (GMsg (Arr 1)))
    (mask : Option (Fin 250 → Bool)) :
    CanCreate bare (pairSite cmd one two mask) pairTables ⟨true, "/t/".toList, none, false⟩ :=
  ⟨rfl, ⟨show "/t/".toList ≠ [] by decide, rfl, rfl⟩, by decide, (by intro p hp; cases hp)⟩

/-- C175: two tables, four maps. -/
example (le : Str → Str → Bool) : ∃ files n1 n2, EndsAlwaysTwo le [] [] (fun _ => none)
      (pairSite (twoCmd (.str "30".toList) sixHours) (early3 id) (rest id) none) pairTables bare pairItems
      (twoReq (some 30) (some accOpts)) "after.grb".toList ⟨true, "/t/".toList, none, false⟩ (fun _ => True)
      (.ended (.ok 0) files) ∧ files.length = n1 + n2 ∧
      (∀ j : Nat, j < n1 ↔ 12 + (j : Int) * 6 ≤ 18) ∧ ∀ j : Nat, j < n2 ↔ 24 + (j : Int) * 6 ≤ 30 := by
  obtain ⟨R, R2, files, n1, n2, -, -, h1, h2, h3, h4, -⟩ := command_tables_accumulation_run le [] [] (fun _ => none)
    (pairSite (twoCmd (.str "30".toList) sixHours) (early3 id) (rest id) none) pairTables bare (bare_reached le) pairItems
    (twoReq (some 30) (some accOpts)) "after.grb".toList (pair_command _ _ aggr_in _ _ _)
    rfl (by decide) id (-9999) (early3 id) rfl (rest id) rfl (by decide +kernel) 6 false false rfl (by decide) _ rfl 18
    ⟨by decide +kernel, by decide +kernel⟩
    (steps_of (by decide +kernel) (by decide +kernel)) 12 30 rfl rfl _ rfl
    (fun h => absurd (congrArg List.length h) (by decide +kernel)) _ rfl 10
    (by decide +kernel) (by decide +kernel) 5 (by decide +kernel) (by decide +kernel) (by decide +kernel)
    (by decide +kernel) (by decide +kernel) (.inl ⟨.inr rfl, rfl⟩)
    ⟨true, "/t/".toList, none, false⟩ (pair_asked _ rfl _ _ _) (bare_no_table _ _) (bare_no_table _ _) (pair_create _ _ _ _)
    pair_apart (pair_rows _) _ (pair_answers _ (by decide)) _ pair_answers2
    _ (List.mem_filter.2 ⟨List.mem_cons_self, by decide +kernel⟩) (by decide +kernel) (by decide)
    (by decide) (by decide)
    (by
      rintro t ⟨j, rfl, hj⟩
      have hf : firstEnd 12 6 = 12 := rfl
      rw [hf] at hj ⊢
      change _ ≤ (18 : Int) at hj
      have : j = 0 ∨ j = 1 := by omega
      rcases this with rfl | rfl
      · exact ⟨by decide +kernel, .inr (by decide +kernel)⟩
      · exact ⟨by decide +kernel, .inr (by decide +kernel)⟩)
    (by
      rintro t ⟨j, rfl, hj⟩
      change (18 : Int) + 6 + _ ≤ 30 at hj
      have : j = 0 ∨ j = 1 := by omega
      rcases this with rfl | rfl
      · exact ⟨by decide +kernel, .inr (by decide +kernel)⟩
      · exact ⟨by decide +kernel, .inr (by decide +kernel)⟩)
  exact ⟨files, n1, n2, h1, h2, h3, h4⟩

/-- C175, average. -/
example (le : Str → Str → Bool) : ∃ files n1 n2, EndsAlwaysTwo le [] [] (fun _ => none)
      (pairSite (twoCmd (.str "30".toList) meanHours) (joined none).file (later (-9999) (.fin 7)).file none) pairTables bare
      pairItems (twoReq (some 30) (some meanOpts)) "after.grb".toList ⟨true, "/t/".toList, none, false⟩ (fun _ => True)
      (.ended (.ok 0) files) ∧ files.length = n1 + n2 ∧
      (∀ j : Nat, j < n1 ↔ 12 + (j : Int) * 6 ≤ 12) ∧ ∀ j : Nat, j < n2 ↔ 24 + (j : Int) * 6 ≤ 30 := by
  obtain ⟨R, R2, files, n1, n2, -, -, h1, h2, h3, h4, -⟩ := command_tables_average_run le [] [] (fun _ => none)
    (pairSite (twoCmd (.str "30".toList) meanHours) (joined none).file (later (-9999) (.fin 7)).file none) pairTables bare
    (bare_reached le) pairItems
    (twoReq (some 30) (some meanOpts)) "after.grb".toList (pair_command _ _ aggr_mean _ _ _)
    rfl (by decide) id (-9999) (joined none).file rfl (later (-9999) (.fin 7)).file rfl (by decide +kernel) 6 false rfl
    (by decide) (by decide +kernel) _ rfl 12 ⟨by decide +kernel, by decide +kernel⟩
    (steps_of (by decide +kernel) (by decide +kernel)) 12 30 rfl (by decide) rfl _ rfl _ rfl 10
    (by decide +kernel) (by decide +kernel) 5 (by decide +kernel) (by decide +kernel) (by decide +kernel)
    (by decide +kernel) (by decide +kernel) (.inl ⟨.inr rfl, rfl⟩)
    ⟨true, "/t/".toList, none, false⟩ (pair_asked _ rfl _ _ _) (bare_no_table _ _) (bare_no_table _ _) (pair_create _ _ _ _)
    pair_apart (pair_rows _) _ (pair_answers _ (by decide)) _ pair_answers2
    _ (List.mem_filter.2 ⟨List.mem_cons_self, by decide +kernel⟩) (by decide +kernel) (by decide)
    (by decide) (by decide) (by decide +kernel) (by decide +kernel)
  exact ⟨files, n1, n2, h1, h2, h3, h4⟩

/-- C176: two tables and a data set. -/
example (le : Str → Str → Bool) : (∃ (d : Dataset 250) (times : List Int), EndsAlwaysTwo le [] [] (fun _ => none)
      (pairSite ((gridNcSite (⟨.int 6, .str "accumulation".toList, none⟩, .null)).commands []) (gridFile.take 2) laterH.file
        (some fun _ => false)) pairTables bare pairItems (gridNcReq accOpts) "after.grb".toList
      ⟨true, "/t/".toList, none, false⟩ (fun items' => NcCommand (pairSite ((gridNcSite (⟨.int 6, .str "accumulation".toList,
        none⟩, .null)).commands []) (gridFile.take 2) laterH.file (some fun _ => false)) items' (gridNcReq accOpts)
        (valuesNcAsked accOpts)) (.stored d) ∧ times[0]? = some 12) ∧
    ∃ (d : Dataset 250) (times : List Int), EndsAlwaysTwo le [] [] (fun _ => none)
      (pairSite ((gridNcSite (⟨.int 6, .str "average".toList, none⟩, .null)).commands []) (gridFile.take 2) laterH.file
        (some fun _ => false)) pairTables bare pairItems (gridNcReq meanOpts) "after.grb".toList
      ⟨true, "/t/".toList, none, false⟩ (fun items' => NcCommand (pairSite ((gridNcSite (⟨.int 6, .str "average".toList,
        none⟩, .null)).commands []) (gridFile.take 2) laterH.file (some fun _ => false)) items' (gridNcReq meanOpts)
        (valuesNcAsked meanOpts)) (.stored d) ∧ times[0]? = some 12 := by
  constructor
  · obtain ⟨R, R2, d, times, n1, n2, -, -, h1, -, ht, -, -, h3, h4, h5, h6⟩ := command_tables_netcdf_accumulation le [] []
      (fun _ => none) _ pairTables bare (bare_reached le) pairItems
      (gridNcReq accOpts) "after.grb".toList (pair_nc_command _ _ aggr_in _ _ _) rfl _ (pair_nc_asked _ accOpts _ _ _)
      (valuesNcAsked_means _)
      (some "D".toList) (.inr ⟨_, rfl, rfl⟩) id (-9999) (gridFile.take 2) rfl laterH.file rfl (by decide +kernel) 6 false false
      rfl (by decide) gridSel rfl 12 ⟨by decide +kernel, by decide +kernel⟩ (steps_of (by decide +kernel) (by decide +kernel))
      12 30 rfl rfl _ joined_taken (fun h => absurd (congrArg List.length h) (by decide +kernel)) _ rfl 10
      (by decide +kernel) (by decide +kernel) 5 (by decide +kernel) (by decide +kernel)
      (by decide +kernel) (20240501, 12) (by decide +kernel) "h".toList
      (by decide +kernel) hours (by decide +kernel) (.inl ⟨.inr rfl, rfl⟩)
      ⟨true, "/t/".toList, none, false⟩ (pair_asked _ rfl _ _ _) (bare_no_table _ _) (bare_no_table _ _)
      (pair_create _ _ _ _) pair_apart (pair_rows _) _ (pair_answers _ (by decide)) _ pair_answers2
      (sixH 5 18 (-9999) fun _ => .fin 7)
      (List.mem_filter.2 ⟨List.mem_cons_self, by decide +kernel⟩) (by decide +kernel) (by decide) (by decide) (by decide)
      grid_ends joined_ends2 (fun _ => false) rfl
    exact ⟨d, times, h1, (h5 0 12 rfl (by decide)).1⟩
  · obtain ⟨R, R2, d, times, n1, n2, -, -, h1, -, ht, -, -, h3, h4, h5, h6⟩ := command_tables_netcdf_average le [] []
      (fun _ => none) _ pairTables bare (bare_reached le) pairItems
      (gridNcReq meanOpts) "after.grb".toList (pair_nc_command _ _ aggr_mean _ _ _) rfl _ (pair_nc_asked _ meanOpts _ _ _)
      (valuesNcAsked_means _)
      (some "D".toList) (.inr ⟨_, rfl, rfl⟩) id (-9999) (gridFile.take 2) rfl laterH.file rfl (by decide +kernel) 6 false
      rfl (by decide) (by decide +kernel) gridSel rfl 12 ⟨by decide +kernel, by decide +kernel⟩
      (steps_of (by decide +kernel) (by decide +kernel))
      12 30 rfl (by decide) rfl _ joined_taken _ rfl 10
      (by decide +kernel) (by decide +kernel) 5 (by decide +kernel) (by decide +kernel)
      (by decide +kernel) (20240501, 12) (by decide +kernel) "h".toList
      (by decide +kernel) hours (by decide +kernel) (.inl ⟨.inr rfl, rfl⟩)
      ⟨true, "/t/".toList, none, false⟩ (pair_asked _ rfl _ _ _) (bare_no_table _ _) (bare_no_table _ _)
      (pair_create _ _ _ _) pair_apart (pair_rows _) _ (pair_answers _ (by decide)) _ pair_answers2
      (sixH 5 18 (-9999) fun _ => .fin 7)
      (List.mem_filter.2 ⟨List.mem_cons_self, by decide +kernel⟩) (by decide +kernel) (by decide) (by decide) (by decide)
      (by decide +kernel) (by decide +kernel) (fun _ => false) rfl
    exact ⟨d, times, h1, (h5 0 12 rfl (by decide)).1⟩

end Demo

end PyG2P
