import Verif.Props.AverageZero

/-! # How commands with two input files end -/

namespace PyG2P
open ArgParse CommandRun Store Spec TableApply Converter Aggregator Reader
variable {n m k : Nat}

namespace Spec

/-- The first step of the messages a command takes, with and without aggregation. -/
def OpensAt (r : Request) (lo : Int) : Prop :=
  (r.aggr = none ∧ lo = r.tstart.getD 0) ∨ ∃ ao, r.aggr = some ao ∧ lo = max 0 (r.tstart.getD 0 - ao.step)

end Spec

/-- Where no message is taken, the selection ends with error 3000. -/
theorem select_none {α : Type} (file : List (GMsg α)) (r : Reader) (b : Bool) (hsrc : r.src = .index b) (p : SelPar)
    (lo hi : Int) (hup : p.shortName.map Char.toUpper ≠ p.shortName) (h : taken file p lo hi = []) :
    ∃ r2, Reader.select file r (selectCmd p lo hi) = (.error (.app 3000), r2) := by
  obtain ⟨g, r', hg, hperm, hin⟩ := getGids_taken file r b hsrc p lo hi hup
  rw [h] at hperm
  have hnil : g = [] := by
    cases g with
    | nil => rfl
    | cons q g =>
      exfalso
      obtain ⟨w, hw⟩ := hin q (List.mem_cons_self ..)
      have hm : (q.1, w) ∈ msgsOf file (q :: g) := by
        unfold msgsOf
        rw [List.mem_filterMap]
        exact ⟨q, List.mem_cons_self .., by rw [hw]; rfl⟩
      rw [List.map_eq_nil_iff.1 (List.perm_nil.1 hperm)] at hm
      cases hm
  exact ((C27_no_messages file _ r' _ g hg).1 hnil).2

theorem settings_two_none_first (x : FileIn n k) (y : SecondFile m) (hidx : x.indexable = true)
    (hup : x.sel.shortName.map Char.toUpper ≠ x.sel.shortName) (E : Int) (hE : LastStep x.file x.sel E) (lo hi : Int)
    (hwin : ∀ step, (StepsDiffer x.file x.sel → step ≠ 0) →
      readerWindow x.tstart x.tend (x.aggr.map AggrOpts.step) step E = (lo, hi))
    (h : taken x.file x.sel lo hi = []) : x.settingsTwo y = .error (.app 3000) := by
  have hsrc0 : x.reader.src = .index x.sel.perturbation.isSome := by
    unfold FileIn.reader Reader.init
    rw [hidx]
    rfl
  obtain ⟨info, r1, hinfo, hsrc1, hend, hstep⟩ := info_facts x.file x.reader _ hsrc0 x.sel E hE
  obtain ⟨r2, hs⟩ := select_none x.file r1 _ hsrc1 x.sel lo hi hup h
  unfold FileIn.settingsTwo
  rw [hinfo]
  dsimp only
  rw [hend, hwin info.step hstep]
  dsimp only
  rw [hs]

theorem settings_two_none_second (x : FileIn n k) (y : SecondFile m) (hidx : x.indexable = true)
    (hidx2 : y.indexable = true) (hup : x.sel.shortName.map Char.toUpper ≠ x.sel.shortName) (E : Int)
    (hE : LastStep x.file x.sel E) (lo hi : Int)
    (hwin : ∀ step, (StepsDiffer x.file x.sel → step ≠ 0) →
      readerWindow x.tstart x.tend (x.aggr.map AggrOpts.step) step E = (lo, hi))
    (hne : taken x.file x.sel lo hi ≠ []) (nj : Int) (hnj : ∀ q ∈ taken x.file x.sel lo hi, q.nj = nj)
    (hdiff : (taken x.file x.sel lo hi).Pairwise Spec.Differ) (mv : ℚ)
    (hmv : ∀ q ∈ taken x.file x.sel lo hi, q.missingValue = .fin mv)
    (hdate : ∀ q ∈ taken x.file x.sel lo hi, (reference q).isSome = true)
    (h : taken y.file x.sel lo hi = []) : x.settingsTwo y = .error (.app 3000) := by
  obtain ⟨info, t2, msgs, ms, hset, -⟩ := first_file (m := m) x hidx hup E hE lo hi hwin hne nj hnj hdiff mv hmv hdate
  have hsrc : (Reader.init y.indexable x.sel.perturbation.isSome ⟨0, [], [], false⟩).src =
      .index x.sel.perturbation.isSome := by
    unfold Reader.init
    rw [hidx2]
    rfl
  obtain ⟨r2, hs⟩ := select_none y.file _ _ hsrc x.sel lo hi hup h
  rw [hset y]
  unfold FileIn.readSecond
  dsimp only
  rw [hs]

namespace CommandRun

/-- A command with two files and another format than PCRaster. -/
theorem netcdf_second_core (ne : NumExpr) (s : Site n k) (items : List (Spec.Written × Str × JVal))
    (r : Spec.Request) (input2 : Str) (hcom : Spec.TwoFileCommand s items r input2) (hfmt : r.format ≠ "pcraster".toList)
    (o : NcOut) (hnc : Spec.NcCommand s items r o) :
    CommandRun.run ne s (Spec.argv items) =
      match (Reader.gribInfo (Spec.runOfTwo s r input2).file (Spec.runOfTwo s r input2).reader
        (infoCmd (Spec.runOfTwo s r input2).sel)).1 with
      | .error e => .ended (statusOf e) []
      | .ok _ =>
        match (Spec.runOfTwo s r input2).settingsTwo (s.second input2).2 with
        | .error _ => .ended (.error .attributeError) []
        | .ok q =>
          match q.maps ne, (Spec.runOfTwo s r input2).firstSelected, decide (r.format = "netcdf".toList) with
          | .ok ms, some m0, true =>
            match (Spec.runOfTwo s r input2).record o q m0 ms with
            | .error e => .ended (statusOf e) []
            | .ok none => .other
            | .ok (some set) => .stored set
          | _, _, _ => .ended (.error .attributeError) [] := by
  obtain ⟨h, hcwd, hfile, ⟨hW, hK⟩, ⟨h2, hne2⟩, hacc⟩ := hcom
  obtain ⟨d, cmd, a, u, hp, hnoc, hdd, -, hlast, hread, hreq, hctx, hfile, hopt⟩ :=
    CommandRun.command_made s items r h hcwd hfile hW hK hacc
  have ho := nc_out s items r o hnc d cmd a u hlast hread hreq hopt
  have htext : asText d "inputFile2" = some input2 := by
    unfold asText; rw [hdd _ _ h2]
  have hgiven : given (asText d "inputFile2") = true := by
    rw [htext]
    cases input2 with
    | nil => exact absurd rfl hne2
    | cons c t => rfl
  unfold CommandRun.run
  rw [hp]
  dsimp only
  rw [hnoc, if_neg (by decide), hctx]
  dsimp only
  rw [if_pos hgiven, htext, if_neg (show ¬ (defined r (s.commands (Spec.located s.cwd cmd)) a).format = _ from
    fun h => absurd (JVal.str.inj h) hfmt), hfile, ho]
  dsimp only
  have hdec : decide ((defined r (s.commands (Spec.located s.cwd cmd)) a).format = .str "netcdf".toList) =
      decide (r.format = "netcdf".toList) :=
    decide_eq_decide.2 ⟨fun h => JVal.str.inj h, fun h => congrArg JVal.str h⟩
  rw [hdec]
  unfold CommandRun.netcdfSecond
  rfl

/-- Where the maps can be written as PCRaster files, they can be made. -/
theorem maps_of_two (ne : NumExpr) (r : RunIn n m k) (files : List (Str × (Fin k → Num)))
    (h : r.pcraster ne = .ok files) : ∃ ms, r.maps ne = .ok ms ∧ ms.length = files.length := by
  unfold RunIn.pcraster at h
  unfold RunIn.maps
  cases hf : r.fields ne with
  | error e => rw [hf] at h; cases h
  | ok vc =>
    obtain ⟨values, change⟩ := vc
    rw [hf] at h
    dsimp only at h ⊢
    obtain ⟨l1, g1⟩ := mapM_get _ _ _ h
    refine Exists.imp (fun ms hm => And.intro hm ?_) (mapM_some_ok _ _ ?_)
    · obtain ⟨l2, -⟩ := mapM_get _ _ _ hm
      rw [l1, l2]
      unfold writePcraster writeNetcdf
      simp only [List.length_map, List.length_zipIdx, gridLoop_length]
    intro q hq
    obtain ⟨j, hj⟩ := List.mem_iff_getElem?.1 hq
    unfold writeNetcdf at hj
    rw [List.getElem?_map] at hj
    cases hb : (gridLoop change false values)[j]? with
    | none => rw [hb] at hj; cases hj
    | some e =>
      obtain ⟨t, v, b⟩ := e
      rw [hb] at hj
      have hw : (writePcraster r.namePrefix r.fmap r.ext (fun b f => (r.render b f).map (pcrWrite r.mask r.mvClone))
          change values)[j]? = some (pcrName r.namePrefix r.fmap r.ext ((1 + j : Nat) : Int),
            (r.render b v).map (pcrWrite r.mask r.mvClone)) := by
        unfold writePcraster
        rw [List.getElem?_map, List.getElem?_zipIdx, hb]
        rfl
      have hlt : j < files.length := by
        rw [l1]
        exact (List.getElem?_eq_some_iff.1 hw).1
      have hg := g1 j _ _ hw (List.getElem?_eq_getElem hlt)
      dsimp only at hg
      rw [← Option.some.inj hj]
      dsimp only
      cases ha : r.render b v with
      | error e => rw [ha] at hg; cases hg
      | ok a => exact ⟨_, rfl⟩

/-- Settings of two files come with a first message. -/
theorem first_of_two (x : FileIn n k) (y : SecondFile m) (q : RunIn n m k) (hset : x.settingsTwo y = .ok q) :
    ∃ info m0 ref, (Reader.gribInfo x.file x.reader (infoCmd x.sel)).1 = .ok info ∧ x.firstSelected = some m0 ∧
      m0 ∈ x.file ∧ m0.referenceTime = .ok ref ∧ q.mask = x.mask := by
  unfold FileIn.settingsTwo at hset
  unfold FileIn.firstSelected
  cases hg : Reader.gribInfo x.file x.reader (infoCmd x.sel) with
  | mk i r1 =>
    rw [hg] at hset
    cases i with
    | error e => cases hset
    | ok info =>
      dsimp only at hset ⊢
      generalize hkw : selectCmd x.sel
          (readerWindow x.tstart x.tend (x.aggr.map AggrOpts.step) info.step info.end_).1
          (readerWindow x.tstart x.tend (x.aggr.map AggrOpts.step) info.step info.end_).2 = kw at hset ⊢
      cases hs : Reader.select x.file r1 kw with
      | mk i r2 =>
        rw [hs] at hset
        cases i with
        | error e => cases hset
        | ok s =>
          dsimp only at hset
          cases ht : FileIn.firstTime x.file r1 kw with
          | error e => rw [ht] at hset; cases hset
          | ok ref =>
            rw [ht] at hset
            dsimp only at hset
            have hmask : q.mask = x.mask := by
              split at hset
              · cases hset
              · split at hset
                · cases hset
                · rw [← Except.ok.inj hset]
                  rfl
            unfold FileIn.firstTime at ht
            cases hm : FileIn.firstMsg x.file r1 kw with
            | none => rw [hm] at ht; cases ht
            | some m0 =>
              rw [hm] at ht
              refine ⟨info, m0, ref, rfl, rfl, ?_, ht, hmask⟩
              unfold FileIn.firstMsg at hm
              split at hm
              · cases hm
              · rw [Option.bind_eq_some_iff] at hm
                obtain ⟨j, -, hj⟩ := hm
                exact List.mem_of_getElem? hj

end CommandRun

/-! ## C179 -/

/-- **C179**: no message of the parameter in the first file: status 0 in every format, whatever the second file holds. -/
theorem two_file_no_messages (ne : NumExpr) (s : Site n k) (items : List (Spec.Written × Str × JVal))
    (r : Spec.Request) (input2 : Str) (hcom : Spec.TwoFileCommand s items r input2)
    (hfmt : r.format = "pcraster".toList ∨ (r.format ≠ "pcraster".toList ∧ ∃ o, NcCommand s items r o))
    (hidx : (s.grib r.input).2 = true) (h : ∀ m ∈ (s.grib r.input).1, m.shortName ≠ r.shortName) :
    CommandRun.run ne s (Spec.argv items) = .ended (.ok 0) [] := by
  have hn := no_named_settings_two (runOfTwo s r input2) (s.second input2).2 hidx (unnamed s r h)
  rcases hfmt with hfmt | ⟨hfmt, o, hnc⟩
  · rw [two_file_command_settings ne s items r input2 hcom hfmt]
    unfold FileIn.pcrasterTwo
    rw [hn]
    rfl
  · rw [netcdf_second_core ne s items r input2 hcom hfmt o hnc,
      no_named_info (runOfTwo s r input2) hidx (unnamed s r h)]
    rfl

/-- **C179** is violated: where the first file holds messages of the parameter, but the maps cannot be made, the netCDF
command always ends with AttributeError, whatever the error is. -/
theorem two_file_netcdf_crash (ne : NumExpr) (s : Site n k) (items : List (Spec.Written × Str × JVal))
    (r : Spec.Request) (input2 : Str) (hcom : Spec.TwoFileCommand s items r input2) (hfmt : r.format ≠ "pcraster".toList)
    (o : NcOut) (hnc : Spec.NcCommand s items r o) (hidx : (s.grib r.input).2 = true)
    (E : Int) (hE : LastStep (s.grib r.input).1 ⟨r.shortName, r.level, r.dataTime, r.dataDate, r.member⟩ E)
    (e : PyErr) (he : (Spec.runOfTwo s r input2).pcrasterTwo ne (s.second input2).2 = .error e) :
    CommandRun.run ne s (Spec.argv items) = .ended (.error .attributeError) [] := by
  rw [netcdf_second_core ne s items r input2 hcom hfmt o hnc]
  obtain ⟨info, hi⟩ := CommandRun.info_read (Spec.runOfTwo s r input2) hidx E hE
  rw [hi]
  dsimp only
  unfold FileIn.pcrasterTwo at he
  cases hset : (Spec.runOfTwo s r input2).settingsTwo (s.second input2).2 with
  | error e' => rfl
  | ok rr =>
    dsimp only
    rw [hset] at he
    cases hm : rr.maps ne with
    | error e' => rfl
    | ok ms =>
      exfalso
      obtain ⟨files, hf⟩ := CommandRun.files_of_maps ne rr ms hm
      dsimp only at he
      rw [hf] at he
      cases he

/-- **C179**: where the PCRaster maps of a command with two files can be written, its netCDF command ends with the data
set or with the error of writing it; a format of the command file that is not known ends with AttributeError. -/
theorem two_file_netcdf_written (ne : NumExpr) (s : Site n k) (items : List (Spec.Written × Str × JVal))
    (r : Spec.Request) (input2 : Str) (hcom : Spec.TwoFileCommand s items r input2) (hfmt : r.format ≠ "pcraster".toList)
    (o : NcOut) (hnc : Spec.NcCommand s items r o) (files : List (Str × (Fin k → Num)))
    (hf : (Spec.runOfTwo s r input2).pcrasterTwo ne (s.second input2).2 = .ok files) :
    (r.format = "netcdf".toList →
      (∀ d, (Spec.runOfTwo s r input2).datasetTwo ne (s.second input2).2 o = .ok (some d) →
        CommandRun.run ne s (Spec.argv items) = .stored d) ∧
      (∀ e, (Spec.runOfTwo s r input2).datasetTwo ne (s.second input2).2 o = .error e →
        CommandRun.run ne s (Spec.argv items) = .ended (Spec.failure e) [])) ∧
    (r.format ≠ "netcdf".toList → CommandRun.run ne s (Spec.argv items) = .ended (.error .attributeError) []) := by
  rw [netcdf_second_core ne s items r input2 hcom hfmt o hnc]
  generalize Spec.runOfTwo s r input2 = x at hf ⊢
  generalize (s.second input2).2 = y at hf ⊢
  unfold FileIn.pcrasterTwo at hf
  cases hset : x.settingsTwo y with
  | error e => rw [hset] at hf; cases hf
  | ok q =>
    rw [hset] at hf
    dsimp only at hf
    obtain ⟨ms, hms, -⟩ := CommandRun.maps_of_two ne q files hf
    obtain ⟨info, m0, ref, hi, h0, -⟩ := CommandRun.first_of_two x y q hset
    unfold FileIn.datasetTwo
    rw [hi, hset]
    dsimp only
    rw [hms, h0]
    dsimp only
    refine ⟨fun hn => ⟨fun d hd => ?_, fun e he => ?_⟩, fun hn => ?_⟩
    · rw [decide_eq_true hn]
      dsimp only
      rw [hd]
    · rw [decide_eq_true hn]
      dsimp only
      rw [he]
      dsimp only
      rw [status_eq]
    · rw [decide_eq_false hn]

/-- **C179**: the data set of two files is refused as that of one (C151): the step unit is that of the messages of the
first file. -/
theorem netcdf_two_refused (ne : NumExpr) (x : FileIn n k) (y : SecondFile m) (o : NcOut)
    (files : List (Str × (Fin k → Num)))
    (h : x.pcrasterTwo ne y = .ok files) (u : Str) (hu : ∀ m ∈ x.file, m.get? "stepUnits".toList = some (.str u)) :
    ((∀ name, (u, name) ∉ gribUnits) → x.datasetTwo ne y o = .error .keyError) ∧
    ((∃ name, (u, name) ∈ gribUnits) →
      (((∃ t, o.valueFormat = .str t ∧ ∀ f ∈ ncFormats, t ≠ f.toList) ∨
          (o.valueFormat ≠ .null ∧ ∀ t, o.valueFormat ≠ .str t)) → x.datasetTwo ne y o = .error .keyError) ∧
      ∀ fmt, (o.valueFormat = .null ∧ fmt = .f8) ∨ o.valueFormat = .str (formatName fmt).toList →
        ((∀ v ∈ [o.scaleFactor, o.offset], NoNumber o.float v ∨ ∃ q, Says o.float v q) →
         (∀ v ∈ [o.validMin, o.validMax], NoNumber o.float v ∨ ∃ l, SaysLimit o.float v l) →
         (∃ v ∈ [o.scaleFactor, o.offset, o.validMin, o.validMax], NoNumber o.float v) →
          x.datasetTwo ne y o = .error .valueError) ∧
        ∀ scale offset lo hi, NcMeans o fmt scale offset lo hi →
          ((files ≠ [] ∧ x.mask = none) ∨ (files = [] ∧ x.mask ≠ none)) → x.datasetTwo ne y o = .error .valueError) := by
  unfold FileIn.pcrasterTwo at h
  cases hset : x.settingsTwo y with
  | error e => rw [hset] at h; cases h
  | ok r =>
    rw [hset] at h
    dsimp only at h
    obtain ⟨ms, hms, hl⟩ := CommandRun.maps_of_two ne r files h
    obtain ⟨info, m0, ref, -, h0, hmem, href, hrm⟩ := CommandRun.first_of_two x y r hset
    have hunit : m0.stepUnit = u := by
      unfold GMsg.stepUnit
      rw [hu m0 hmem]
    have hd : x.datasetTwo ne y o = x.record o r m0 ms := by
      unfold FileIn.datasetTwo
      rw [hset]
      dsimp only
      rw [hms]
      dsimp only
      rw [h0]
    rw [hd]
    have hnil : files = [] ↔ ms = [] := by rw [← List.length_eq_zero_iff, ← hl, List.length_eq_zero_iff]
    rw [show files ≠ [] ↔ ms ≠ [] from not_congr hnil, hnil]
    exact record_refused x o r ms m0 ref href hrm u hunit

/-- **C179**: no message of the first file is taken, or none of the second: nothing is written, not even the maps of the
first file, and the PCRaster command ends with status 0. -/
theorem two_file_none_taken (ne : NumExpr) (s : Site n k) (items : List (Spec.Written × Str × JVal))
    (r : Spec.Request) (input2 : Str) (hcom : Spec.TwoFileCommand s items r input2)
    (mv : ℚ) (file : List (GMsg (Arr n))) (hfile : s.grib r.input = (file, true))
    {m : Nat} (file2 : List (GMsg (Arr m))) (hfile2 : s.second input2 = ⟨m, ⟨file2, true⟩⟩)
    (hup : r.shortName.map Char.toUpper ≠ r.shortName)
    (p : SelPar) (hp : p = ⟨r.shortName, r.level, r.dataTime, r.dataDate, r.member⟩)
    (E : Int) (hE : Spec.LastStep file p E) (hreg : Spec.StepsDiffer file p)
    (lo hi : Int) (hlo : Spec.OpensAt r lo) (hhi : hi = Spec.windowEnd r.tend E)
    (sel : List (GMsg (Arr n))) (hsel : sel = Spec.taken file p lo hi)
    (hnone : sel = [] ∨ (Spec.taken file2 p lo hi = [] ∧ sel.Pairwise Spec.Differ ∧ (∃ nj, ∀ q ∈ sel, q.nj = nj) ∧
      (∀ q ∈ sel, q.missingValue = .fin mv) ∧ ∀ q ∈ sel, (Spec.reference q).isSome = true)) :
    (r.format = "pcraster".toList → CommandRun.run ne s (Spec.argv items) = .ended (.ok 0) []) ∧
    (r.format ≠ "pcraster".toList → ∀ o, Spec.NcCommand s items r o →
      CommandRun.run ne s (Spec.argv items) = .ended (.error .attributeError) []) := by
  subst hp hsel hhi
  have e1 : (Spec.runOfTwo s r input2).file = file := congrArg Prod.fst hfile
  have e2 : (Spec.runOfTwo s r input2).indexable = true := congrArg Prod.snd hfile
  have hset : (Spec.runOfTwo s r input2).settingsTwo (s.second input2).2 = .error (.app 3000) := by
    have hwin : ∀ step, (StepsDiffer (Spec.runOfTwo s r input2).file (Spec.runOfTwo s r input2).sel → step ≠ 0) →
        readerWindow (Spec.runOfTwo s r input2).tstart (Spec.runOfTwo s r input2).tend
          ((Spec.runOfTwo s r input2).aggr.map AggrOpts.step) step E = (lo, windowEnd r.tend E) := by
      intro step h
      rcases hlo with ⟨ha, rfl⟩ | ⟨ao, ha, rfl⟩
      · rw [show (Spec.runOfTwo s r input2).aggr = none from ha]
        exact window_plain ..
      · rw [show (Spec.runOfTwo s r input2).aggr = some ao from ha]
        exact window_aggr _ _ _ _ _ (h (by rw [e1]; exact hreg))
    by_cases hnil : taken file ⟨r.shortName, r.level, r.dataTime, r.dataDate, r.member⟩ lo (windowEnd r.tend E) = []
    · exact settings_two_none_first (Spec.runOfTwo s r input2) _ e2 hup E (by rw [e1]; exact hE) lo _ hwin
        (by rw [e1]; exact hnil)
    · rcases hnone with h | ⟨h, hdiff, ⟨nj, hnj⟩, hmv, hdate⟩
      · exact absurd h hnil
      · rw [hfile2]
        exact settings_two_none_second (Spec.runOfTwo s r input2) ⟨file2, true⟩ e2 rfl hup E (by rw [e1]; exact hE) lo _
          hwin (by rw [e1]; exact hnil) nj (by rw [e1]; exact hnj) (by rw [e1]; exact hdiff) mv (by rw [e1]; exact hmv)
          (by rw [e1]; exact hdate) h
  have hpcr : (Spec.runOfTwo s r input2).pcrasterTwo ne (s.second input2).2 = .error (.app 3000) := by
    unfold FileIn.pcrasterTwo
    rw [hset]
  refine ⟨fun hfmt => ?_, fun hfmt o hnc => ?_⟩
  · rw [two_file_command_settings ne s items r input2 hcom hfmt, hpcr]
    rfl
  · exact two_file_netcdf_crash ne s items r input2 hcom hfmt o hnc e2 E (by rw [← e1] at hE; exact hE) _ hpcr

namespace Demo

/-- C179: the first file holds no message of the parameter; the second one does. -/
example : CommandRun.run (fun _ => none) (twoSite [] (rest id) .null sixHours) (Spec.argv twoItems) = .ended (.ok 0) [] :=
  two_file_no_messages (fun _ => none) (twoSite [] (rest id) .null sixHours) twoItems
    (twoReq none (some ⟨6, "accumulation", false, false⟩)) "after.grb".toList
    (two_command _ _ _ none _ _ (end_in _ _ _ (by decide +kernel) (by decide +kernel)) aggr_in (by rintro b h; cases h))
    (.inl rfl) rfl (by intro m h; cases h)

/-- C179: the second file begins after the end asked for. -/
example : CommandRun.run (fun _ => none) (twoSite (early id) (rest id) (.str "12".toList) sixHours) (Spec.argv twoItems) =
    .ended (.ok 0) [] :=
  (two_file_none_taken (fun _ => none) (twoSite (early id) (rest id) (.str "12".toList) sixHours) twoItems
    (twoReq (some 12) (some ⟨6, "accumulation", false, false⟩)) "after.grb".toList
    (two_command _ _ _ (some 12) _ _ (end_in _ _ _ (by decide +kernel) (by decide +kernel)) aggr_in
      (by rintro b h; injection h with h; omega))
    (-9999) (early id) rfl (rest id) rfl (by decide +kernel) _ rfl 12 ⟨by decide +kernel, by decide +kernel⟩
    (steps_of (by decide +kernel) (by decide +kernel)) 6 12 (.inr ⟨_, rfl, by decide⟩) (by decide) _ rfl
    (.inr ⟨List.eq_nil_of_length_eq_zero (by decide +kernel), differ_of_ends (by decide +kernel), ⟨10, by decide +kernel⟩,
      by decide +kernel, by decide +kernel⟩)).1 rfl

/-- The netCDF command of `joinedSite` with a second file that begins after the end. -/
def overSite : Site 2 1 :=
  { joinedSite (⟨.int 6, .str "accumulation".toList, none⟩, .null) with
    second := fun _ => ⟨1, ⟨[sixH 5 36 (-9999) fun _ => .fin 7, sixH 5 42 (-9999) fun _ => .fin 9], true⟩⟩ }

theorem over_command : Spec.TwoFileCommand overSite twoItems (gridNcReq accOpts) "after.grb".toList := by
  have h := joined_command (⟨.int 6, .str "accumulation".toList, none⟩, .null) accOpts aggr_in
  obtain ⟨cmd, h1, h2, h3⟩ := h.file
  exact { h with file := ⟨cmd, h1, h2, { h3 with }⟩, acceptable := { h.acceptable with } }

theorem over_asked : Spec.NcCommand overSite twoItems (gridNcReq accOpts) (valuesNcAsked accOpts) := by
  intro cmd hc
  have := joined_asked (⟨.int 6, .str "accumulation".toList, none⟩, .null) accOpts cmd hc
  exact { this with }

/-- C179: its netCDF command, which crashes. -/
example : CommandRun.run (fun _ => none) overSite (Spec.argv twoItems) = .ended (.error .attributeError) [] :=
  (two_file_none_taken (fun _ => none) overSite twoItems (gridNcReq accOpts) "after.grb".toList over_command
    (-9999) (gridFile.take 2) rfl _ rfl (by decide +kernel) _ rfl 12 ⟨by decide +kernel, by decide +kernel⟩
    (steps_of (by decide +kernel) (by decide +kernel)) 6 30 (.inr ⟨_, rfl, by decide⟩) (by decide) _ rfl
    (.inr ⟨List.eq_nil_of_length_eq_zero (by decide +kernel), differ_of_ends (by decide +kernel), ⟨10, by decide +kernel⟩,
      by decide +kernel, by decide +kernel⟩)).2 (by decide) _ over_asked

/-- C179: a value format that is none; the PCRaster maps can be written. -/
example : (runOfTwo (joinedSite (⟨.int 6, .str "accumulation".toList, none⟩, .null)) (gridNcReq accOpts)
      "after.grb".toList).datasetTwo (fun _ => none) laterH
      { valuesNcAsked accOpts with valueFormat := .str "f16".toList } = .error .keyError := by
  obtain ⟨files, hf⟩ : ∃ files, (runOfTwo (joinedSite (⟨.int 6, .str "accumulation".toList, none⟩, .null)) (gridNcReq accOpts)
      "after.grb".toList).pcrasterTwo (fun _ => none) laterH = .ok files := by
    have : ((runOfTwo (joinedSite (⟨.int 6, .str "accumulation".toList, none⟩, .null)) (gridNcReq accOpts)
      "after.grb".toList).pcrasterTwo (fun _ => none) laterH).toOption.isSome = true := by decide +kernel
    cases h : (runOfTwo (joinedSite (⟨.int 6, .str "accumulation".toList, none⟩, .null)) (gridNcReq accOpts)
      "after.grb".toList).pcrasterTwo (fun _ => none) laterH with
    | error e => rw [h] at this; cases this
    | ok files => exact ⟨files, rfl⟩
  have hu : ∀ m ∈ gridFile.take 2, m.get? "stepUnits".toList = some (.str "h".toList) := by decide +kernel
  exact ((netcdf_two_refused (fun _ => none) _ laterH { valuesNcAsked accOpts with valueFormat := .str "f16".toList } files
    hf "h".toList hu).2 hours).1 (.inl ⟨_, rfl, by decide +kernel⟩)

end Demo

end PyG2P
