import Verif.Props.TableCommandEnds

/-! # Averages from the beginning of the forecast -/

namespace PyG2P
open ArgParse CommandRun Store Spec TableApply Converter Aggregator
variable {n m k : Nat}

/-! ## The settings of a run from step 0 and from the aggregation step -/

/-- The same run from another start. -/
def RunIn.moved (r : RunIn n m k) (a : Int) : RunIn n m k := { r with ctrl := { r.ctrl with start := a } }

/-- Where the intervals of the first grid end: at the end of the run, or at the change of grid. -/
def CtrlIn.lastEnd (c : CtrlIn n m) : Int :=
  match c.msgs.changeResolutionStep with
  | none => c.end_
  | some s => s.startStep

theorem average_first_zero (c : CtrlIn n m) (a : Int) (hpos : 0 < a) (ha : c.aggrStep = some a) (hty : c.aggrType = "average")
    (hin : c.inputStep ≠ 0) (h0 : c.start = 0) (hend : (c.lastEnd + 1) % a ≠ 0) :
    ({ c with start := a } : CtrlIn n m).firstPart = c.firstPart := by
  obtain ⟨msgs, aggregate, aggrStep, aggrType, hw, fz, ut, inp, st, st2, start, end_, cut⟩ := c
  dsimp only at ha hty hin h0
  subst ha h0
  set c : CtrlIn n m := ⟨msgs, aggregate, some a, aggrType, hw, fz, ut, inp, st, st2, 0, end_, cut⟩ with hcd
  have hag : (⟨msgs, aggregate, some a, aggrType, hw, fz, ut, inp, st, st2, a, end_, cut⟩ : CtrlIn n m).aggregator a
      = { c.aggregator a with start := a } := by
    unfold CtrlIn.aggregator Aggregator.init
    dsimp only [hcd]
    rw [if_pos hin, if_pos hin]
    have h0 : c.start = 0 := rfl
    congr 1
    split <;> split <;> omega
  unfold CtrlIn.firstPart
  rw [hcd]
  dsimp only
  rw [hag]
  unfold CtrlIn.lastEnd at hend
  rw [hcd] at hend
  dsimp only at hend
  split
  · cases hm : msgs.changeResolutionStep with
    | none =>
      rw [hm] at hend
      dsimp only at hend ⊢
      rw [C10_average_start_zero_partial (c.aggregator a) msgs.first hty hpos rfl rfl hend]
      rfl
    | some s =>
      rw [hm] at hend
      dsimp only at hend ⊢
      rw [C10_average_start_zero_partial ((c.aggregator a).changeEndStep s.startStep) msgs.first hty hpos rfl rfl hend]
      rfl
  · rfl

theorem average_ctrl_zero (c : CtrlIn n m) (a : Int) (hpos : 0 < a) (ha : c.aggrStep = some a) (hty : c.aggrType = "average")
    (hin : c.inputStep ≠ 0) (h0 : c.start = 0) (hend : (c.lastEnd + 1) % a ≠ 0) :
    ({ c with start := a } : CtrlIn n m).run = c.run := by
  unfold CtrlIn.run
  rw [average_first_zero c a hpos ha hty hin h0 hend]
  rfl

theorem average_fields_zero (ne : NumExpr) (r : RunIn n m k) (a : Int) (hpos : 0 < a) (ha : r.ctrl.aggrStep = some a)
    (hty : r.ctrl.aggrType = "average") (hin : r.ctrl.inputStep ≠ 0) (h0 : r.ctrl.start = 0)
    (hend : (r.ctrl.lastEnd + 1) % a ≠ 0) : (r.moved a).fields ne = r.fields ne := by
  unfold RunIn.fields RunIn.moved
  dsimp only
  cases r.conversion with
  | none => exact average_ctrl_zero { r.ctrl with cutOff := false } a hpos ha hty hin h0 hend
  | some f =>
    dsimp only
    cases hc : r.ctrl.msgs.applyConversion ne (Converter.init f r.ctrl.cutOff) with
    | error e => rfl
    | ok ms =>
      have hch : ms.changeResolutionStep = r.ctrl.msgs.changeResolutionStep := by
        unfold MsgSet.applyConversion at hc
        obtain ⟨x, -, hc⟩ := bind_ok_iff.1 hc
        obtain ⟨y, -, hc⟩ := bind_ok_iff.1 hc
        rw [← Except.ok.inj hc]
        rfl
      refine average_ctrl_zero { r.ctrl with msgs := ms } a hpos ha hty hin h0 ?_
      unfold CtrlIn.lastEnd at hend ⊢
      dsimp only
      rw [hch]
      exact hend

/-- The window read, and the steps found, from either start. -/
theorem info_zero (x : FileIn n k) (hidx : x.indexable = true) (ao : AggrOpts) (hagg : x.aggr = some ao) (a : Int)
    (ha : ao.step = a) (hpos : 0 < a) (E : Int) (hE : LastStep x.file x.sel E) (hreg : StepsDiffer x.file x.sel)
    (h0 : x.tstart.getD 0 = 0) :
    ∃ info r1, Reader.gribInfo x.file x.reader (infoCmd x.sel) = (.ok info, r1) ∧ info.end_ = E ∧ info.step ≠ 0 ∧
      readerWindow (some a) x.tend (x.aggr.map AggrOpts.step) info.step info.end_ =
        readerWindow x.tstart x.tend (x.aggr.map AggrOpts.step) info.step info.end_ := by
  have hsrc0 : x.reader.src = .index x.sel.perturbation.isSome := by
    unfold FileIn.reader Reader.init
    rw [hidx]
    rfl
  obtain ⟨info, r1, hinfo, -, hend, hstep⟩ := info_facts x.file x.reader _ hsrc0 x.sel E hE
  refine ⟨info, r1, hinfo, hend, hstep hreg, ?_⟩
  rw [hagg, Option.map_some, window_aggr _ _ _ _ _ (hstep hreg), window_aggr _ _ _ _ _ (hstep hreg), ha, h0,
    Option.getD_some]
  congr 1
  omega

theorem assemble_zero (x : FileIn n k) (a : Int) (hpos : 0 < a) (info : Reader.StepsInfo) (t2 : String)
    (msgs : MsgSet n m) :
    ({ x with tstart := some a } : FileIn n k).assemble info t2 msgs = (x.assemble info t2 msgs).moved a := by
  have hr := range_eq ({ x with tstart := some a } : FileIn n k) info
  have hr' := range_eq x info
  unfold FileIn.assemble RunIn.moved
  rw [hr, hr']
  rfl

theorem settings_zero (x : FileIn n k) (hidx : x.indexable = true) (ao : AggrOpts) (hagg : x.aggr = some ao) (a : Int)
    (ha : ao.step = a) (hpos : 0 < a) (E : Int) (hE : LastStep x.file x.sel E) (hreg : StepsDiffer x.file x.sel)
    (h0 : x.tstart.getD 0 = 0) :
    ({ x with tstart := some a } : FileIn n k).settings = x.settings.map (·.moved a) := by
  obtain ⟨info, r1, hinfo, -, -, hw⟩ := info_zero x hidx ao hagg a ha hpos E hE hreg h0
  unfold FileIn.settings
  have hinfo' : Reader.gribInfo ({ x with tstart := some a } : FileIn n k).file
    ({ x with tstart := some a } : FileIn n k).reader (infoCmd ({ x with tstart := some a } : FileIn n k).sel)
      = (.ok info, r1) := hinfo
  rw [hinfo, hinfo']
  dsimp only
  rw [hw]
  generalize selectCmd x.sel _ _ = kw
  cases Reader.select x.file r1 kw with
  | mk o r2 =>
    cases o with
    | error e => rfl
    | ok s =>
      dsimp only
      cases FileIn.firstTime x.file r1 kw with
      | error e => rfl
      | ok _ =>
        dsimp only
        show (match MsgSet.init s.first (x.selectedMv r1 kw) (x.grid s) s.second with
          | .error e => .error e
          | .ok msgs => .ok (({ x with tstart := some a } : FileIn n k).assemble info (x.selectedType r1 kw) msgs)
            : Py (RunIn n n k)) = _
        cases MsgSet.init s.first (x.selectedMv r1 kw) (x.grid s) s.second with
        | error e => rfl
        | ok msgs =>
          dsimp only
          rw [assemble_zero x a hpos]
          rfl

theorem settingsTwo_zero (x : FileIn n k) (y : SecondFile m) (hidx : x.indexable = true) (ao : AggrOpts)
    (hagg : x.aggr = some ao) (a : Int)
    (ha : ao.step = a) (hpos : 0 < a) (E : Int) (hE : LastStep x.file x.sel E) (hreg : StepsDiffer x.file x.sel)
    (h0 : x.tstart.getD 0 = 0) :
    ({ x with tstart := some a } : FileIn n k).settingsTwo y = (x.settingsTwo y).map (·.moved a) := by
  obtain ⟨info, r1, hinfo, -, -, hw⟩ := info_zero x hidx ao hagg a ha hpos E hE hreg h0
  unfold FileIn.settingsTwo
  have hinfo' : Reader.gribInfo ({ x with tstart := some a } : FileIn n k).file
    ({ x with tstart := some a } : FileIn n k).reader (infoCmd ({ x with tstart := some a } : FileIn n k).sel)
      = (.ok info, r1) := hinfo
  rw [hinfo, hinfo']
  dsimp only
  rw [hw]
  generalize selectCmd x.sel _ _ = kw
  cases Reader.select x.file r1 kw with
  | mk o r2 =>
    cases o with
    | error e => rfl
    | ok s =>
      dsimp only
      cases FileIn.firstTime x.file r1 kw with
      | error e => rfl
      | ok _ =>
        dsimp only
        show (match MsgSet.init s.first (x.selectedMv r1 kw) (x.grid s) s.second with
          | .error e => .error e
          | .ok msgs => match x.readSecond y kw with
            | .error e => .error e
            | .ok msgs2 => .ok (({ x with tstart := some a } : FileIn n k).assemble info (x.selectedType r1 kw)
              (msgs.append2nd msgs2)) : Py (RunIn n m k)) = _
        cases MsgSet.init s.first (x.selectedMv r1 kw) (x.grid s) s.second with
        | error e => rfl
        | ok msgs =>
          dsimp only
          cases x.readSecond y kw with
          | error e => rfl
          | ok msgs2 =>
            dsimp only
            rw [assemble_zero x a hpos]
            rfl

theorem firstSelected_zero (x : FileIn n k) (hidx : x.indexable = true) (ao : AggrOpts) (hagg : x.aggr = some ao)
    (a : Int) (ha : ao.step = a) (hpos : 0 < a) (E : Int) (hE : LastStep x.file x.sel E)
    (hreg : StepsDiffer x.file x.sel) (h0 : x.tstart.getD 0 = 0) :
    ({ x with tstart := some a } : FileIn n k).firstSelected = x.firstSelected := by
  obtain ⟨info, r1, hinfo, -, -, hw⟩ := info_zero x hidx ao hagg a ha hpos E hE hreg h0
  unfold FileIn.firstSelected
  have hinfo' : Reader.gribInfo ({ x with tstart := some a } : FileIn n k).file
    ({ x with tstart := some a } : FileIn n k).reader (infoCmd ({ x with tstart := some a } : FileIn n k).sel)
      = (.ok info, r1) := hinfo
  rw [hinfo, hinfo']
  dsimp only
  rw [hw]

/-! ## What is asked for -/

/-- An average every `a` hours, asked for from step 0 or from no step, of a parameter with more than one step; `hi` is
the step where the run ends: the one asked for, else the last one of the parameter. The messages up to there are on one
grid, end at different steps and have one missing value and readable dates. -/
structure Spec.FromZero (x : FileIn n k) (a hi : Int) : Prop where
  indexed : x.indexable = true
  name : x.sel.shortName.map Char.toUpper ≠ x.sel.shortName
  average : ∃ ao, x.aggr = some ao ∧ ao.type = "average" ∧ ao.step = a
  positive : 0 < a
  start : x.tstart.getD 0 = 0
  last : ∃ E, LastStep x.file x.sel E ∧ hi = windowEnd x.tend E
  steps : StepsDiffer x.file x.sel
  some : taken x.file x.sel 0 hi ≠ []
  grid : ∃ nj : Int, ∀ m ∈ taken x.file x.sel 0 hi, m.nj = nj
  ends : ((taken x.file x.sel 0 hi).map GMsg.endStep).Nodup
  missing : ∃ mv : ℚ, ∀ m ∈ taken x.file x.sel 0 hi, m.missingValue = .fin mv
  dates : ∀ m ∈ taken x.file x.sel 0 hi, (reference m).isSome = true

/-- The same with a second file, whose messages up to `hi` are also on one grid, at different steps, with readable
dates; `c` is the first of them. -/
structure Spec.FromZeroTwo (x : FileIn n k) (y : SecondFile m) (a hi : Int) (c : GMsg (Arr m)) : Prop
    extends Spec.FromZero x a hi where
  indexed2 : y.indexable = true
  grid2 : ∃ nj : Int, ∀ q ∈ taken y.file x.sel 0 hi, q.nj = nj
  ends2 : ((taken y.file x.sel 0 hi).map GMsg.endStep).Nodup
  dates2 : ∀ q ∈ taken y.file x.sel 0 hi, (reference q).isSome = true
  first2 : c ∈ taken y.file x.sel 0 hi ∧ ∀ q ∈ taken y.file x.sel 0 hi, c.endStep ≤ q.endStep

/-! ## The runs -/

theorem zero_one (x : FileIn n k) (a hi : Int) (h : FromZero x a hi) :
    ∃ (r : RunIn n n k) (mv : ℚ), x.settings = .ok r ∧
      ({ x with tstart := some a } : FileIn n k).settings = .ok (r.moved a) ∧
      ({ x with tstart := some a } : FileIn n k).firstSelected = x.firstSelected ∧
      ((hi + 1) % a ≠ 0 → ∀ ne, (r.moved a).fields ne = r.fields ne) ∧
      r.conversion = x.conversion ∧ r.ctrl.msgs.mv = .fin mv ∧ r.ctrl.msgs.changeResolutionStep = none ∧
      r.ctrl.aggregate = true ∧ r.ctrl.aggrStep = some a ∧ r.ctrl.aggrType = "average" ∧ r.ctrl.start = 0 ∧
      r.ctrl.end_ = hi ∧ r.ctrl.inputStep ≠ 0 ∧ r.ctrl.stepType = x.paramType ∧
      r.ctrl.halfweights = (x.aggr.map AggrOpts.halfweights).getD false ∧
      ∀ t, Avail r.ctrl.msgs.first t ↔ ∃ q ∈ taken x.file x.sel 0 hi, q.endStep = t := by
  obtain ⟨hidx, hup, ⟨ao, hagg, hty, ha⟩, hpos, h0, ⟨E, hE, hhi⟩, hreg, hne, ⟨nj, hnj⟩, hdiff, ⟨mv, hmv⟩, hdate⟩ := h
  obtain ⟨info, t2, msgs, ms, hset, hend, hone, hmvs, hperm, hmap⟩ := file_settings x hidx hup E hE 0 hi
    (fun step hst => by
      have := window_aggr x.tstart x.tend ao.step step E (hst hreg)
      rw [h0, max_eq_left (by omega), ← hhi] at this
      rw [hagg, Option.map_some, this]) hne nj hnj (differ_of_ends hdiff) mv hmv hdate
  have hr := range_eq x info
  rw [hend, h0, ← hhi] at hr
  have hs := settings_zero x hidx ao hagg a ha hpos E hE hreg h0
  obtain ⟨info', r1, hinfo, -, hst, -⟩ := info_zero x hidx ao hagg a ha hpos E hE hreg h0
  have hinf : (x.assemble info t2 msgs).ctrl.inputStep ≠ 0 := by
    have h1 := hset
    unfold FileIn.settings at h1
    rw [hinfo] at h1
    dsimp only at h1
    split at h1
    · cases h1
    · split at h1
      · cases h1
      · split at h1
        · cases h1
        · rw [← Except.ok.inj h1]
          exact hst
  rw [hset] at hs
  have e1 : (x.assemble info t2 msgs).ctrl.aggrStep = some a := by unfold FileIn.assemble; rw [hagg, ← ha]; rfl
  have e2 : (x.assemble info t2 msgs).ctrl.aggrType = "average" := by unfold FileIn.assemble; rw [hagg, ← hty]; rfl
  have e3 : (x.assemble info t2 msgs).ctrl.start = 0 := congrArg Prod.fst hr
  have e4 : (x.assemble info t2 msgs).ctrl.end_ = hi := congrArg Prod.snd hr
  refine ⟨x.assemble info t2 msgs, mv, hset, hs, firstSelected_zero x hidx ao hagg a ha hpos E hE hreg h0, ?_, rfl, hmvs, hone,
    by unfold FileIn.assemble; rw [hagg]; rfl, e1, e2, e3, e4, hinf, rfl, rfl, avail_file hperm hmap⟩
  intro hm ne
  refine average_fields_zero ne _ a hpos e1 e2 hinf e3 ?_
  unfold CtrlIn.lastEnd
  rw [show (x.assemble info t2 msgs).ctrl.msgs.changeResolutionStep = none from hone]
  dsimp only
  rw [e4]
  exact hm

theorem zero_two (x : FileIn n k) (y : SecondFile m) (a hi : Int) (c : GMsg (Arr m)) (h : FromZeroTwo x y a hi c)
    (hm : (c.startStep + 1) % a ≠ 0) :
    ∃ r : RunIn n m k, x.settingsTwo y = .ok r ∧
      ({ x with tstart := some a } : FileIn n k).settingsTwo y = .ok (r.moved a) ∧
      ({ x with tstart := some a } : FileIn n k).firstSelected = x.firstSelected ∧
      (∀ ne, (r.moved a).fields ne = r.fields ne) := by
  obtain ⟨⟨hidx, hup, ⟨ao, hagg, hty, ha⟩, hpos, h0, ⟨E, hE, hhi⟩, hreg, hne, ⟨nj, hnj⟩, hdiff, ⟨mv, hmv⟩, hdate⟩,
    hidx2, ⟨nj2, hnj2⟩, hdiff2, hdate2, hc, hcmin⟩ := h
  have hz : max 0 ((0 : Int) - a) = 0 := by omega
  obtain ⟨info, t2, msgs, msgs2, ms, ms2, hset, hr1, hr2, -, hmvs, -, -, -, -, hcs, -⟩ :=
    two_file_settings x y mv hidx hidx2 hup ao hagg a ha E hE hreg 0 hi h0.symm hhi _ rfl (by rw [hz]; exact hne) _ rfl
      nj (by rw [hz]; exact hnj) (by rw [hz]; exact hdiff) nj2 (by rw [hz]; exact hnj2) (by rw [hz]; exact hdiff2)
      (by rw [hz]; exact hmv) (by rw [hz]; exact hdate) (by rw [hz]; exact hdate2) c (by rw [hz]; exact hc)
      (by rw [hz]; exact hcmin)
  have hs := settingsTwo_zero x y hidx ao hagg a ha hpos E hE hreg h0
  obtain ⟨info', r1, hinfo, -, hst, -⟩ := info_zero x hidx ao hagg a ha hpos E hE hreg h0
  have hinf : (x.assemble info t2 (msgs.append2nd msgs2)).ctrl.inputStep ≠ 0 := by
    have h1 := hset
    unfold FileIn.settingsTwo at h1
    rw [hinfo] at h1
    dsimp only at h1
    split at h1
    · cases h1
    · split at h1
      · cases h1
      · split at h1
        · cases h1
        · split at h1
          · cases h1
          · rw [← Except.ok.inj h1]
            exact hst
  rw [hset] at hs
  have e1 : (x.assemble info t2 (msgs.append2nd msgs2)).ctrl.aggrStep = some a := by
    unfold FileIn.assemble; rw [hagg, ← ha]; rfl
  have e2 : (x.assemble info t2 (msgs.append2nd msgs2)).ctrl.aggrType = "average" := by
    unfold FileIn.assemble; rw [hagg, ← hty]; rfl
  refine ⟨_, hset, hs, firstSelected_zero x hidx ao hagg a ha hpos E hE hreg h0, fun ne => ?_⟩
  refine average_fields_zero ne _ a hpos e1 e2 hinf hr1 ?_
  have : (x.assemble info t2 (msgs.append2nd msgs2)).ctrl.msgs.changeResolutionStep = some msgs2.firstStep := rfl
  unfold CtrlIn.lastEnd
  rw [this]
  dsimp only
  rw [hcs]
  exact hm

theorem moved_pcraster (ne : NumExpr) (r : RunIn n m k) (a : Int) (h : (r.moved a).fields ne = r.fields ne) :
    (r.moved a).pcraster ne = r.pcraster ne := by
  unfold RunIn.pcraster
  rw [h]
  rfl

theorem moved_maps (ne : NumExpr) (r : RunIn n m k) (a : Int) (h : (r.moved a).fields ne = r.fields ne) :
    (r.moved a).maps ne = r.maps ne := by
  unfold RunIn.maps
  rw [h]
  rfl

theorem moved_loop {β γ : Type} (le : Str → Str → Bool) (r : RunIn n m k) (a : Int) (q q2 : Lookup k)
    (put : γ → Arr k → β) (l : List (γ × Field n m × Bool)) (w : Store (Table k)) :
    (r.moved a).mapLoop le q q2 put w l = r.mapLoop le q q2 put w l := by
  induction l generalizing w with
  | nil => rfl
  | cons e l ih =>
    obtain ⟨x, f, b⟩ := e
    unfold RunIn.mapLoop
    have : ∀ t, (r.moved a).renderBy t b f = r.renderBy t b f := fun t => rfl
    cases w.table le (if b then q2 else q) with
    | mk o w' =>
      cases o with
      | error e => rfl
      | ok t =>
        dsimp only
        rw [this]
        cases r.renderBy t b f with
        | error e => rfl
        | ok v =>
          dsimp only
          rw [ih]

theorem moved_pcrasterIn (le : Str → Str → Bool) (ne : NumExpr) (w : Store (Table k)) (q q2 : Lookup k)
    (r : RunIn n m k) (a : Int) (h : (r.moved a).fields ne = r.fields ne) :
    (r.moved a).pcrasterIn le ne w q q2 = r.pcrasterIn le ne w q q2 := by
  unfold RunIn.pcrasterIn
  rw [h]
  cases r.fields ne with
  | error e => rfl
  | ok p =>
    dsimp only
    rw [moved_loop]
    rfl

theorem moved_mapsIn (le : Str → Str → Bool) (ne : NumExpr) (w : Store (Table k)) (q q2 : Lookup k)
    (r : RunIn n m k) (a : Int) (h : (r.moved a).fields ne = r.fields ne) :
    (r.moved a).mapsIn le ne w q q2 = r.mapsIn le ne w q q2 := by
  unfold RunIn.mapsIn
  rw [h]
  cases r.fields ne with
  | error e => rfl
  | ok p =>
    dsimp only
    rw [moved_loop]

theorem moved_ncIn (le : Str → Str → Bool) (ne : NumExpr) (w : Store (Table k)) (q q2 : Lookup k) (x : FileIn n k)
    (known : Bool) (o : NcOut) (r : RunIn n m k) (a : Int) (h : (r.moved a).fields ne = r.fields ne)
    (hf : ({ x with tstart := some a } : FileIn n k).firstSelected = x.firstSelected) :
    ncIn le ne w q q2 { x with tstart := some a } known o (.ok (r.moved a)) = ncIn le ne w q q2 x known o (.ok r) := by
  unfold ncIn
  rw [hf]
  cases known with
  | false => rfl
  | true =>
    dsimp only
    rw [moved_mapsIn le ne w q q2 r a h]
    rfl

/-! ## C177: starting at 0 is starting at the first interval -/

/-- **C177.** An average over one file written as PCRaster maps: without a start the command does what it does with the
start at the first interval (`-s` equal to the aggregation step), provided the step after the end of the run is not a
multiple of the aggregation step. -/
theorem command_average_zero (ne : NumExpr) (s : Site n k) (items items' : List (Written × Str × JVal)) (r : Request)
    (a hi : Int) (hcom : Command s items r) (hcom' : Command s items' { r with tstart := some a })
    (hfmt : r.format = "pcraster".toList) (h : FromZero (runOf s r) a hi) (hend : (hi + 1) % a ≠ 0) :
    CommandRun.run ne s (argv items) = CommandRun.run ne s (argv items') := by
  obtain ⟨run, mv, h1, h2, -, h3, -⟩ := zero_one _ a hi h
  rw [command_settings ne s items r hcom hfmt, command_settings ne s items' _ hcom' hfmt]
  have : (runOf s { r with tstart := some a }).pcraster ne = (runOf s r).pcraster ne := by
    unfold FileIn.pcraster
    rw [show (runOf s { r with tstart := some a }).settings = _ from h2, h1]
    exact moved_pcraster ne run a (h3 hend ne)
  rw [this]

/-- **C177.** The same with netCDF output, and with an unknown format. -/
theorem netcdf_average_zero (ne : NumExpr) (s : Site n k) (items items' : List (Written × Str × JVal)) (r : Request)
    (a hi : Int) (hcom : Command s items r) (hcom' : Command s items' { r with tstart := some a })
    (hfmt : r.format ≠ "pcraster".toList) (o : NcOut) (hnc : NcCommand s items r o)
    (hnc' : NcCommand s items' { r with tstart := some a } o) (h : FromZero (runOf s r) a hi)
    (hend : (hi + 1) % a ≠ 0) :
    CommandRun.run ne s (argv items) = CommandRun.run ne s (argv items') := by
  obtain ⟨run, mv, h1, h2, hf, h3, -⟩ := zero_one _ a hi h
  rw [netcdf_core ne s items r hcom hfmt o hnc, netcdf_core ne s items' _ hcom' hfmt o hnc']
  unfold netcdfRun
  rw [show (runOf s { r with tstart := some a }).settings = _ from h2, h1,
    show (runOf s { r with tstart := some a }).firstSelected = _ from hf]
  dsimp only
  rw [moved_maps ne run a (h3 hend ne)]
  rfl

/-- **C177.** The same with two input files, as PCRaster maps: what counts is the step after the start of the first
message of the second file. -/
theorem two_file_command_average_zero (ne : NumExpr) (s : Site n k) (items items' : List (Written × Str × JVal))
    (r : Request) (input2 : Str) (a hi : Int) (c : GMsg (Arr (s.second input2).1))
    (hcom : TwoFileCommand s items r input2)
    (hcom' : TwoFileCommand s items' { r with tstart := some a } input2) (hfmt : r.format = "pcraster".toList)
    (h : FromZeroTwo (runOfTwo s r input2) (s.second input2).2 a hi c) (hend : (c.startStep + 1) % a ≠ 0) :
    CommandRun.run ne s (argv items) = CommandRun.run ne s (argv items') := by
  obtain ⟨run, h1, h2, -, h3⟩ := zero_two _ _ a hi c h hend
  rw [two_file_command_settings ne s items r input2 hcom hfmt,
    two_file_command_settings ne s items' _ input2 hcom' hfmt]
  have : (runOfTwo s { r with tstart := some a } input2).pcrasterTwo ne (s.second input2).2 =
      (runOfTwo s r input2).pcrasterTwo ne (s.second input2).2 := by
    unfold FileIn.pcrasterTwo
    rw [show (runOfTwo s { r with tstart := some a } input2).settingsTwo (s.second input2).2 = _ from h2, h1]
    exact moved_pcraster ne run a (h3 ne)
  rw [this]

/-- **C177.** On a folder of tables, one file, PCRaster maps: same end, same maps, same tables left. -/
theorem table_average_zero (le : Str → Str → Bool) (ne : NumExpr) (s : Site n k) (ts : TableSite k)
    (w : Store (Table k)) (items items' : List (Written × Str × JVal)) (r : Request) (q : TableReq)
    (a hi : Int) (hcom : Command s items r) (hcom' : Command s items' { r with tstart := some a })
    (hask : TableAsked s ts items q) (hask' : TableAsked s ts items' q)
    (hfmt : r.format = "pcraster".toList) (h : FromZero (runOf s r) a hi) (hend : (hi + 1) % a ≠ 0) :
    runIn le ne s ts w (argv items) = runIn le ne s ts w (argv items') := by
  obtain ⟨run, mv, h1, h2, -, h3, -⟩ := zero_one _ a hi h
  rw [table_core le ne s ts w items r hcom q hask hfmt, table_core le ne s ts w items' _ hcom' q hask' hfmt,
    show (runOf s { r with tstart := some a }).settings = _ from h2, h1]
  unfold pcrIn
  dsimp only
  rw [moved_pcrasterIn le ne w _ _ run a (h3 hend ne)]
  rfl

/-- **C177.** The same with netCDF output. -/
theorem table_netcdf_average_zero (le : Str → Str → Bool) (ne : NumExpr) (s : Site n k) (ts : TableSite k)
    (w : Store (Table k)) (items items' : List (Written × Str × JVal)) (r : Request) (q : TableReq)
    (a hi : Int) (hcom : Command s items r) (hcom' : Command s items' { r with tstart := some a })
    (hask : TableAsked s ts items q) (hask' : TableAsked s ts items' q)
    (hfmt : r.format ≠ "pcraster".toList) (o : NcOut) (hnc : NcCommand s items r o)
    (hnc' : NcCommand s items' { r with tstart := some a } o) (h : FromZero (runOf s r) a hi)
    (hend : (hi + 1) % a ≠ 0) :
    runIn le ne s ts w (argv items) = runIn le ne s ts w (argv items') := by
  obtain ⟨run, mv, h1, h2, hf, h3, -⟩ := zero_one _ a hi h
  rw [table_core_nc le ne s ts w items r hcom q hask hfmt o hnc,
    table_core_nc le ne s ts w items' _ hcom' q hask' hfmt o hnc',
    show (runOf s { r with tstart := some a }).settings = _ from h2, h1]
  exact (moved_ncIn le ne w _ _ (runOf s r) _ o run a (h3 hend ne) hf).symm

/-- **C177.** On a folder of tables with two files, PCRaster maps. -/
theorem table_two_average_zero (le : Str → Str → Bool) (ne : NumExpr) (s : Site n k) (ts : TableSite k)
    (w : Store (Table k)) (items items' : List (Written × Str × JVal)) (r : Request) (input2 : Str) (q : TableReq)
    (a hi : Int) (c : GMsg (Arr (s.second input2).1)) (hcom : TwoFileCommand s items r input2)
    (hcom' : TwoFileCommand s items' { r with tstart := some a } input2)
    (hask : TableAsked s ts items q) (hask' : TableAsked s ts items' q)
    (hfmt : r.format = "pcraster".toList) (h : FromZeroTwo (runOf s r) (s.second input2).2 a hi c)
    (hend : (c.startStep + 1) % a ≠ 0) :
    runIn le ne s ts w (argv items) = runIn le ne s ts w (argv items') := by
  obtain ⟨run, h1, h2, -, h3⟩ := zero_two _ _ a hi c h hend
  rw [table_core_two le ne s ts w items r input2 hcom q hask hfmt,
    table_core_two le ne s ts w items' _ input2 hcom' q hask' hfmt,
    show (runOf s { r with tstart := some a }).settingsTwo (s.second input2).2 = _ from h2, h1]
  unfold pcrIn
  dsimp only
  rw [moved_pcrasterIn le ne w _ _ run a (h3 ne)]
  rfl

/-- **C177.** The same with netCDF output. -/
theorem table_netcdf_two_average_zero (le : Str → Str → Bool) (ne : NumExpr) (s : Site n k) (ts : TableSite k)
    (w : Store (Table k)) (items items' : List (Written × Str × JVal)) (r : Request) (input2 : Str) (q : TableReq)
    (a hi : Int) (c : GMsg (Arr (s.second input2).1)) (hcom : TwoFileCommand s items r input2)
    (hcom' : TwoFileCommand s items' { r with tstart := some a } input2)
    (hask : TableAsked s ts items q) (hask' : TableAsked s ts items' q)
    (hfmt : r.format ≠ "pcraster".toList) (o : NcOut) (hnc : NcCommand s items r o)
    (hnc' : NcCommand s items' { r with tstart := some a } o)
    (h : FromZeroTwo (runOf s r) (s.second input2).2 a hi c)
    (hend : (c.startStep + 1) % a ≠ 0) :
    runIn le ne s ts w (argv items) = runIn le ne s ts w (argv items') := by
  obtain ⟨run, h1, h2, hf, h3⟩ := zero_two _ _ a hi c h hend
  rw [table_core_nc_two le ne s ts w items r input2 hcom q hask hfmt o hnc,
    table_core_nc_two le ne s ts w items' _ input2 hcom' q hask' hfmt o hnc',
    show (runOf s { r with tstart := some a }).settingsTwo (s.second input2).2 = _ from h2, h1]
  exact (moved_ncIn le ne w _ _ (runOf s r) _ o run a (h3 ne) hf).symm

/-- **C177.** With two input files and netCDF output: the same data set, or none in both cases. -/
theorem netcdf_two_average_zero (ne : NumExpr) (s : Site n k) (items items' : List (Written × Str × JVal))
    (r : Request) (input2 : Str) (a hi : Int) (c : GMsg (Arr (s.second input2).1))
    (hcom : TwoFileCommand s items r input2)
    (hcom' : TwoFileCommand s items' { r with tstart := some a } input2) (hfmt : r.format = "netcdf".toList)
    (o : NcOut) (hnc : NcCommand s items r o) (hnc' : NcCommand s items' { r with tstart := some a } o)
    (h : FromZeroTwo (runOfTwo s r input2) (s.second input2).2 a hi c) (hend : (c.startStep + 1) % a ≠ 0)
    (set : Dataset k) :
    CommandRun.run ne s (argv items) = .stored set ↔ CommandRun.run ne s (argv items') = .stored set := by
  obtain ⟨run, h1, h2, hf, h3⟩ := zero_two _ _ a hi c h hend
  rw [netcdf_second_iff ne s items r input2 hcom hfmt o hnc set,
    netcdf_second_iff ne s items' _ input2 hcom' hfmt o hnc' set]
  have : (runOfTwo s { r with tstart := some a } input2).datasetTwo ne (s.second input2).2 o =
      (runOfTwo s r input2).datasetTwo ne (s.second input2).2 o := by
    unfold FileIn.datasetTwo
    rw [show (runOfTwo s { r with tstart := some a } input2).settingsTwo (s.second input2).2 = _ from h2, h1,
      show (runOfTwo s { r with tstart := some a } input2).firstSelected = _ from hf]
    dsimp only [Except.map]
    rw [moved_maps ne run a (h3 ne)]
    rfl
  rw [this]

/-! ## C178: where starting at 0 fails -/

/-- From start 0 the interval ending one step after the end of the run is wanted too, when it is one of the intervals. -/
theorem average_zero_fails (ag : Aggregator) (ms : Messages n) (hne : ms ≠ []) (htype : ag.aggrType = "average")
    (hs : 0 < ag.aggrStep) (hst : ag.stepType ≠ "accum") (hh : ag.halfweights = false) (h0 : ag.start = 0)
    (he : 0 ≤ ag.end_) (hend : (ag.end_ + 1) % ag.aggrStep = 0) (hno : ∀ u, Avail ms u → u ≤ ag.end_) :
    ag.doManipulation ms = .error .indexError := by
  rw [doManipulation_avg ag ms htype]
  obtain ⟨p, ms', rfl⟩ := List.exists_cons_of_ne_nil hne
  rw [average_intro ag _ hs hst p rfl]
  have hb : ag.avgBounds = (0, ag.end_ - ag.aggrStep + 2) := by
    unfold avgBounds
    rw [if_pos (Or.inl h0), h0]
  rw [hb]
  obtain ⟨q, hq⟩ := Int.dvd_of_emod_eq_zero hend
  have hq0 : 0 < q := by
    by_contra hc
    have : ag.aggrStep * q ≤ 0 := Int.mul_nonpos_of_nonneg_of_nonpos hs.le (by omega)
    omega
  refine fold_out_fail (avgIter_eq ag _ p.1.resolution p.1.level) _ ?_
    ⟨ag.end_ + 1 - ag.aggrStep, (mem_rangeList hs).2 ⟨(q - 1).toNat, ?_, by dsimp only; omega⟩,
      avgVal_plain_fail ag hh hs _ _ (fun u hu => by have := hno u hu; omega)⟩ []
  · intro t _
    by_cases hex : ∃ u, Avail (p :: ms') u ∧ t + ag.aggrStep ≤ u
    · exact Or.inl (avgVal_plain_total ag hh hs _ t hex)
    · exact Or.inr (avgVal_plain_fail ag hh hs _ t fun u hu => by
        by_contra hc
        exact hex ⟨u, hu, by omega⟩)
  · dsimp only
    rw [Int.toNat_of_nonneg (by omega), hq]
    ring

/-- The maps of a run from 0 whose end is one step before an interval's. -/
theorem zero_fails (ne : NumExpr) (x : FileIn n k) (f : Num → Num) (a hi : Int) (h : FromZero x a hi)
    (hhalf : ∀ ao, x.aggr = some ao → ao.halfweights = false)
    (hinst : ∀ m ∈ x.file, named x.sel m = true → String.ofList m.stepType ≠ "accum")
    (hconv : Means ne x.conversion f) (he : 0 ≤ hi) (hend : (hi + 1) % a = 0) :
    ∃ r, x.settings = .ok r ∧ r.fields ne = .error .indexError := by
  obtain ⟨r, mv, h1, -, -, -, hc, hmv, hone, hagg, ha, hty, h0, hhi, -, hst, hh, hav⟩ := zero_one x a hi h
  obtain ⟨E, hE, -⟩ := h.last
  obtain ⟨mt, hmt, hmn, hpt⟩ := paramType_mem x h.indexed E hE
  refine ⟨r, h1, ?_⟩
  rw [fields_two ne r f mv hmv (by rw [hc]; exact hconv)]
  have hwin : ∀ q ∈ taken x.file x.sel 0 hi, q.endStep ≤ hi := by
    intro q hq
    unfold taken at hq
    rw [if_neg (by simp)] at hq
    have := (List.mem_filter.1 hq).2
    rw [Bool.and_eq_true] at this
    have h2 := this.2
    unfold inWindow at h2
    split at h2
    · have := of_decide_eq_true h2; omega
    · exact (of_decide_eq_true h2).2
  have hfail : ((convertedCtrl mv f r.ctrl).aggregator a).doManipulation (convertedMsgs mv f r.ctrl.msgs.first)
      = .error .indexError := by
    refine average_zero_fails _ _ ?_ hty h.positive ?_ ?_ h0 (by show 0 ≤ r.ctrl.end_; omega)
      (by show (r.ctrl.end_ + 1) % a = 0; rw [hhi]; exact hend) ?_
    · intro hn
      obtain ⟨q, hq⟩ := List.exists_mem_of_ne_nil _ h.some
      obtain ⟨e, hm, -⟩ := (hav q.endStep).2 ⟨q, hq, rfl⟩
      have : r.ctrl.msgs.first = [] := List.map_eq_nil_iff.1 hn
      rw [this] at hm
      cases hm
    · show r.ctrl.stepType ≠ "accum"
      rw [hst, hpt]
      exact hinst mt hmt hmn
    · show r.ctrl.halfweights = false
      obtain ⟨ao, h2, -⟩ := h.average
      rw [hh, h2]
      exact hhalf ao h2
    · intro u hu
      obtain ⟨q, hq, rfl⟩ := (hav u).1 ((avail_converted _ _ _ _).1 hu)
      show _ ≤ r.ctrl.end_
      rw [hhi]
      exact hwin q hq
  have hf1 : (convertedCtrl mv f r.ctrl).firstPart = .error .indexError :=
    (firstPart_aggregated (c := convertedCtrl mv f r.ctrl) hagg ha hone).trans hfail
  have hf2 : ({ convertedCtrl mv f r.ctrl with cutOff := cuts r } : CtrlIn n n).firstPart = .error .indexError := hf1
  unfold CtrlIn.run
  rw [hf2]

/-- **C178.** When the step after the end of the run is a multiple of the aggregation step, a command that asks for
averages without a start ends with an uncaught `IndexError` and writes no map. -/
theorem command_average_zero_fails (ne : NumExpr) (s : Site n k) (items : List (Written × Str × JVal)) (r : Request)
    (f : Num → Num) (a hi : Int) (hcom : Command s items r) (hfmt : r.format = "pcraster".toList)
    (h : FromZero (runOf s r) a hi) (hhalf : ∀ ao, (runOf s r).aggr = some ao → ao.halfweights = false)
    (hinst : ∀ m ∈ (runOf s r).file, named (runOf s r).sel m = true → String.ofList m.stepType ≠ "accum")
    (hconv : Means ne (runOf s r).conversion f) (he : 0 ≤ hi) (hend : (hi + 1) % a = 0) :
    CommandRun.run ne s (argv items) = .ended (.error .indexError) [] := by
  obtain ⟨run, h1, h2⟩ := zero_fails ne _ f a hi h hhalf hinst hconv he hend
  rw [command_settings ne s items r hcom hfmt]
  unfold FileIn.pcraster RunIn.pcraster
  rw [h1]
  dsimp only
  rw [h2]
  rfl

/-- **C178.** With netCDF output the failure while cleaning up hides it: `AttributeError`, and no data set. -/
theorem netcdf_average_zero_fails (ne : NumExpr) (s : Site n k) (items : List (Written × Str × JVal)) (r : Request)
    (f : Num → Num) (a hi : Int) (hcom : Command s items r) (hfmt : r.format ≠ "pcraster".toList)
    (o : NcOut) (hnc : NcCommand s items r o)
    (h : FromZero (runOf s r) a hi) (hhalf : ∀ ao, (runOf s r).aggr = some ao → ao.halfweights = false)
    (hinst : ∀ m ∈ (runOf s r).file, named (runOf s r).sel m = true → String.ofList m.stepType ≠ "accum")
    (hconv : Means ne (runOf s r).conversion f) (he : 0 ≤ hi) (hend : (hi + 1) % a = 0) :
    CommandRun.run ne s (argv items) = .ended (.error .attributeError) [] := by
  obtain ⟨run, h1, h2⟩ := zero_fails ne _ f a hi h hhalf hinst hconv he hend
  obtain ⟨ao, hagg, -, ha⟩ := h.average
  obtain ⟨E, hE, -⟩ := h.last
  obtain ⟨info, r1, hinfo, -⟩ := info_zero _ h.indexed ao hagg a ha h.positive E hE h.steps h.start
  rw [netcdf_core ne s items r hcom hfmt o hnc]
  unfold netcdfRun RunIn.maps
  rw [hinfo, h1]
  dsimp only
  rw [h2]

/-- **C178.** On a folder of tables: the same end, and the tables stay as they were, none is created. -/
theorem table_average_zero_fails (le : Str → Str → Bool) (ne : NumExpr) (s : Site n k) (ts : TableSite k)
    (w : Store (Table k)) (items : List (Written × Str × JVal)) (r : Request) (q : TableReq)
    (f : Num → Num) (a hi : Int) (hcom : Command s items r) (hask : TableAsked s ts items q)
    (hfmt : r.format = "pcraster".toList)
    (h : FromZero (runOf s r) a hi) (hhalf : ∀ ao, (runOf s r).aggr = some ao → ao.halfweights = false)
    (hinst : ∀ m ∈ (runOf s r).file, named (runOf s r).sel m = true → String.ofList m.stepType ≠ "accum")
    (hconv : Means ne (runOf s r).conversion f) (he : 0 ≤ hi) (hend : (hi + 1) % a = 0) :
    runIn le ne s ts w (argv items) = (.ended (.error .indexError) [], w) := by
  obtain ⟨run, h1, h2⟩ := zero_fails ne _ f a hi h hhalf hinst hconv he hend
  rw [table_core le ne s ts w items r hcom q hask hfmt, h1]
  unfold pcrIn endPcr RunIn.pcrasterIn
  dsimp only
  rw [h2]
  rfl

/-- **C178.** Hourly averages cannot be made without a start. -/
theorem hourly_average_fails (ne : NumExpr) (s : Site n k) (items : List (Written × Str × JVal)) (r : Request)
    (f : Num → Num) (hi : Int) (hcom : Command s items r) (hfmt : r.format = "pcraster".toList)
    (h : FromZero (runOf s r) 1 hi) (hhalf : ∀ ao, (runOf s r).aggr = some ao → ao.halfweights = false)
    (hinst : ∀ m ∈ (runOf s r).file, named (runOf s r).sel m = true → String.ofList m.stepType ≠ "accum")
    (hconv : Means ne (runOf s r).conversion f) (he : 0 ≤ hi) :
    CommandRun.run ne s (argv items) = .ended (.error .indexError) [] :=
  command_average_zero_fails ne s items r f 1 hi hcom hfmt h hhalf hinst hconv he (Int.emod_one _)

/-! ## Commands that meet the hypotheses -/

namespace Demo

/-- `rainItems` with other words `o` where the start is given. -/
def startItems (o : List (Written × Str × JVal)) : List (Written × Str × JVal) :=
  rainItems.take 2 ++ (o ++ rainItems.drop 3)

/-- no start, and `-s6`. -/
def fromNone : List (Written × Str × JVal) := startItems []
def fromSix : List (Written × Str × JVal) := startItems [(.joined "-s".toList "6".toList, "start".toList, .int 6)]

example : argv fromNone = ["-c", "./cmd.json", "--inputFile=rain.grb", "-o", "out"].map String.toList ∧
    argv fromSix = ["-c", "./cmd.json", "--inputFile=rain.grb", "-s6", "-o", "out"].map String.toList := ⟨rfl, rfl⟩

theorem start_absent (o : List (Written × Str × JVal)) (ho : ∀ q ∈ o, q.2.1 = "start".toList) (name : String)
    (h : name.toList ∉ rainItems.map fun q => q.2.1) : Absent (startItems o) name := by
  have hs : name.toList ≠ "start".toList := by
    intro e
    rw [e] at h
    exact h (by decide)
  intro q hq
  rcases List.mem_append.1 hq with hq | hq
  · exact fun e => h (List.mem_map.2 ⟨q, List.mem_of_mem_take hq, e⟩)
  · rcases List.mem_append.1 hq with hq | hq
    · rw [ho q hq]
      exact fun e => hs e.symm
    · exact fun e => h (List.mem_map.2 ⟨q, List.mem_of_mem_drop hq, e⟩)

theorem start_command (one : List (GMsg (Arr 2))) (two : List (GMsg (Arr 1))) (tend : JVal) (te : Option Int)
    (aggr : Option (JAggr × JVal)) (ao : Option AggrOpts) (o : List (Written × Str × JVal)) (ts : Option Int)
    (ho : ∀ q ∈ o, q.2.1 = "start".toList) (hw : ∀ q ∈ o, Sets q.1 q.2.1 q.2.2)
    (hts : Chosen (startItems o) (twoCmd tend aggr).base [] [] .tstart (JVal.ofOption .int ts))
    (htend : expected none tend .null true = .ok (JVal.ofOption .int te))
    (hz : tend ∉ [JVal.int 0, .num 0, .str [], .bool false]) (haggr : AggrIn aggr ao)
    (hle : ∀ a b, ts = some a → te = some b → a ≤ b) :
    Command (twoSite one two tend aggr) (startItems o) { twoReq te ao with tstart := ts } := by
  have ab := start_absent o ho
  have hstart : ∀ (name : Str), name ≠ "start".toList → ∀ q ∈ o, q.2.1 ≠ name := fun name h q hq e =>
    h (e.symm.trans (ho q hq))
  obtain ⟨cmd, h1, h2, h3⟩ := rain_command.file
  refine ⟨?_, rain_command.cwd, ⟨"./cmd.json".toList, ⟨[], _, (startItems o).tail, rfl, ?_⟩,
    show rainSite.fs.isFile (located rainSite.cwd "./cmd.json".toList) = true by decide +kernel,
    { h3 with
      input := ⟨[rainItems.head (by decide)], _, o ++ rainItems.drop 3, rfl, ?_⟩
      outDir := Or.inl ⟨rainItems.take 2 ++ o, _, [], (List.append_assoc _ _ _).symm, by decide⟩
      tstart := hts
      tend := Or.inr ⟨ab "end" (by decide +kernel), Or.inl hz, htend⟩
      dataTime := Or.inr ⟨ab "dataTime" (by decide +kernel),
        show inJson rainCmd.base .dataTime ∉ _ ∨ _ by decide +kernel,
        show expected none (inJson rainCmd.base .dataTime) (Spec.default rainCmd.base [] [] .dataTime) (isInt .dataTime) = .ok .null by
          decide +kernel⟩
      dataDate := Or.inr ⟨ab "dataDate" (by decide +kernel),
        show inJson rainCmd.base .dataDate ∉ _ ∨ _ by decide +kernel,
        show expected none (inJson rainCmd.base .dataDate) (Spec.default rainCmd.base [] [] .dataDate) (isInt .dataDate) = .ok .null by
          decide +kernel⟩
      member := Or.inr ⟨ab "perturbationNumber" (by decide +kernel), rfl⟩
      aggr := haggr
      namePrefix := Or.inr ⟨ab "namePrefix" (by decide +kernel),
        show inJson rainCmd.base .namePrefix ∉ _ ∨ _ by decide +kernel,
        show expected none (inJson rainCmd.base .namePrefix) (Spec.default rainCmd.base [] [] .namePrefix) (isInt .namePrefix) = .ok (.str "R".toList) by
          decide +kernel⟩
      fmap := Or.inr ⟨ab "fmap" (by decide +kernel),
        show inJson rainCmd.base .fmap ∉ _ ∨ _ by decide +kernel,
        show expected none (inJson rainCmd.base .fmap) (Spec.default rainCmd.base [] [] .fmap) (isInt .fmap) = .ok (.int 1) by
          decide +kernel⟩
      ext := Or.inr ⟨ab "ext" (by decide +kernel),
        show inJson rainCmd.base .ext ∉ _ ∨ _ by decide +kernel,
        show expected none (inJson rainCmd.base .ext) (Spec.default rainCmd.base [] [] .ext) (isInt .ext) = .ok (.int 1) by
          decide +kernel⟩
      format := Or.inr ⟨ab "format" (by decide +kernel),
        show inJson rainCmd.base .format ∉ _ ∨ _ by decide +kernel,
        show expected none (inJson rainCmd.base .format) (Spec.default rainCmd.base [] [] .format) (isInt .format) = .ok (.str "pcraster".toList) by
          decide +kernel⟩ }⟩,
    ⟨ab _ (by decide +kernel), ab _ (by decide +kernel), ab _ (by decide +kernel)⟩,
    { rain_command.acceptable with window := hle }⟩
  · intro q hq
    rcases List.mem_append.1 hq with hq | hq
    · exact rain_command.written q (List.mem_of_mem_take hq)
    · rcases List.mem_append.1 hq with hq | hq
      · exact hw q hq
      · exact rain_command.written q (List.mem_of_mem_drop hq)
  · intro q hq
    rcases List.mem_cons.1 hq with rfl | hq
    · decide +kernel
    · have hq' : q ∈ o ++ rainItems.drop 3 := hq
      rcases List.mem_append.1 hq' with h | h
      · exact hstart _ (by decide) q h
      · have hd : ∀ q ∈ rainItems.drop 3, q.2.1 ≠ "commandsFile".toList := by decide +kernel
        exact hd q h
  · intro q hq
    rcases List.mem_append.1 hq with h | h
    · exact hstart _ (by decide) q h
    · have hd : ∀ q ∈ rainItems.drop 3, q.2.1 ≠ "inputFile".toList := by decide +kernel
      exact hd q h

theorem none_command (one : List (GMsg (Arr 2))) (two : List (GMsg (Arr 1))) (aggr : Option (JAggr × JVal))
    (ao : Option AggrOpts) (haggr : AggrIn aggr ao) :
    Command (twoSite one two (.str "30".toList) aggr) fromNone { twoReq (some 30) ao with tstart := none } :=
  start_command one two _ (some 30) aggr ao [] none (by simp) (by simp)
    (Or.inr ⟨show ∀ q ∈ startItems [], q.2.1 ≠ "start".toList by decide +kernel,
      show inJson rainCmd.base .tstart ∉ _ ∨ _ by decide +kernel,
      show expected none (inJson rainCmd.base .tstart) (Spec.default rainCmd.base [] [] .tstart) (isInt .tstart) = .ok .null
        by decide +kernel⟩) (by decide +kernel)
    (by decide +kernel) haggr (by rintro a b h; cases h)

theorem six_command (one : List (GMsg (Arr 2))) (two : List (GMsg (Arr 1))) (aggr : Option (JAggr × JVal))
    (ao : Option AggrOpts) (haggr : AggrIn aggr ao) :
    Command (twoSite one two (.str "30".toList) aggr) fromSix { twoReq (some 30) ao with tstart := some 6 } := by
  refine start_command one two _ (some 30) aggr ao _ (some 6) (by simp) ?_ ?_ (by decide +kernel) (by decide +kernel) haggr
    (by rintro a b h1 h2; injection h1 with h1; injection h2 with h2; omega)
  · intro q hq
    rw [List.mem_singleton] at hq
    subst hq
    exact ⟨("-s", "--start", .number), by unfold Spec.valued; simp, rfl, rfl, by decide,
      ⟨6, ⟨[6], by decide, by decide, Or.inl ⟨by decide, by decide⟩⟩, rfl⟩, by decide, by decide⟩
  · exact Or.inl ⟨⟨rainItems.take 2, _, rainItems.drop 3, rfl, by decide +kernel⟩, by decide⟩

/-- values every six hours up to 30. -/
def sixToThirty : List (GMsg (Arr 2)) :=
  [6, 12, 18, 24, 30].map fun t => six 10 t (-9999) fun i => if i = 0 then .fin 1 else Num.ofInt t

/-- means every `a` hours. -/
def meansOf (a : Int) : Option (JAggr × JVal) := some (⟨.int a, .str "average".toList, none⟩, .null)

theorem aggr_means (a : Int) (h : a = 1 ∨ a = 6) : AggrIn (meansOf a) (some ⟨a, "average", false, false⟩) := by
  rcases h with rfl | rfl
  · exact Or.inr ⟨_, _, 1, "average", false, rfl, Or.inl rfl, by decide, rfl, by decide, rfl, Or.inr (Or.inl ⟨rfl, rfl⟩)⟩
  · exact Or.inr ⟨_, _, 6, "average", false, rfl, Or.inl rfl, by decide, rfl, by decide, rfl, Or.inr (Or.inl ⟨rfl, rfl⟩)⟩

def thirty (a : Int) : Site 2 1 := twoSite sixToThirty [] (.str "30".toList) (meansOf a)

def thirtyReq (a : Int) : Request := { twoReq (some 30) (some ⟨a, "average", false, false⟩) with tstart := none }

theorem thirty_zero (a : Int) (h : 0 < a) : FromZero (runOf (thirty a) (thirtyReq a)) a 30 where
  indexed := rfl
  name := show "tp".toList.map Char.toUpper ≠ "tp".toList by decide +kernel
  average := ⟨_, rfl, rfl, rfl⟩
  positive := h
  start := rfl
  last := ⟨30, show LastStep sixToThirty ⟨"tp".toList, none, none, none, none⟩ 30 from
    ⟨by decide +kernel, by decide +kernel⟩, rfl⟩
  steps := show StepsDiffer sixToThirty ⟨"tp".toList, none, none, none, none⟩ from
    steps_of (by decide +kernel) (by decide +kernel)
  some := show taken sixToThirty ⟨"tp".toList, none, none, none, none⟩ 0 30 ≠ [] from
    fun h => absurd (congrArg List.length h) (by decide +kernel)
  grid := ⟨10, show ∀ m ∈ taken sixToThirty ⟨"tp".toList, none, none, none, none⟩ 0 30, _ by decide +kernel⟩
  ends := show ((taken sixToThirty ⟨"tp".toList, none, none, none, none⟩ 0 30).map GMsg.endStep).Nodup by decide +kernel
  missing := ⟨-9999, show ∀ m ∈ taken sixToThirty ⟨"tp".toList, none, none, none, none⟩ 0 30,
    m.missingValue = .fin (-9999) by decide +kernel⟩
  dates := show ∀ m ∈ taken sixToThirty ⟨"tp".toList, none, none, none, none⟩ 0 30, (reference m).isSome = true by
    decide +kernel

/-- C177: the hypotheses are met, and the command without a start writes five maps. -/
example : CommandRun.run (fun _ => none) (thirty 6) (argv fromNone) =
    CommandRun.run (fun _ => none) (thirty 6) (argv fromSix) :=
  command_average_zero _ (thirty 6) fromNone fromSix (thirtyReq 6) 6 30 (none_command _ _ _ _ (aggr_means 6 (.inr rfl)))
    (six_command _ _ _ _ (aggr_means 6 (.inr rfl))) rfl (thirty_zero 6 (by decide)) (by decide)

example : outcome (CommandRun.run (fun _ => none) (thirty 6) (argv fromNone)) =
    some (.ok 0, [("out/R0000000.001", .fin 6), ("out/R0000000.002", .fin 12), ("out/R0000000.003", .fin 18),
      ("out/R0000000.004", .fin 24), ("out/R0000000.005", .fin 30)]) := by
  decide +kernel

/-- C178: hourly means of the same messages. -/
example : CommandRun.run (fun _ => none) (thirty 1) (argv fromNone) = .ended (.error .indexError) [] :=
  hourly_average_fails _ (thirty 1) fromNone (thirtyReq 1) id 30 (none_command _ _ _ _ (aggr_means 1 (.inl rfl))) rfl
    (thirty_zero 1 (by decide)) (by rintro ao h; injection h with h; rw [← h])
    (show ∀ m ∈ sixToThirty, named ⟨"tp".toList, none, none, none, none⟩ m = true → _ by decide +kernel)
    (.inl ⟨.inr rfl, rfl⟩) (by decide)

theorem thirty_asked (ts : TableSite 1) (o : List (Written × Str × JVal)) (ho : ∀ q ∈ o, q.2.1 = "start".toList)
    (hs : ts.splits = fun _ => none) (a : Int) : TableAsked (thirty a) ts (startItems o) ⟨false, [], none, false⟩ where
  create := Or.inr ⟨start_absent o ho _ (by decide +kernel), rfl⟩
  parallel := Or.inr ⟨start_absent o ho _ (by decide +kernel), rfl⟩
  file := fun c _ => ⟨Or.inr ⟨start_absent o ho _ (by decide +kernel),
    show inJson rainCmd.base .intertableDir ∉ _ ∨ _ by decide +kernel,
    show expected none (inJson rainCmd.base .intertableDir) (Spec.default rainCmd.base [] [] .intertableDir)
      (isInt .intertableDir) = .ok (.str []) by decide +kernel⟩, by rw [hs]⟩

/-- C177 and C178 on any folder of tables. -/
example (le : Str → Str → Bool) (ts : TableSite 1) (w : Store (Table 1)) (hs : ts.splits = fun _ => none) :
    runIn le (fun _ => none) (thirty 6) ts w (argv fromNone) = runIn le (fun _ => none) (thirty 6) ts w (argv fromSix) ∧
    runIn le (fun _ => none) (thirty 1) ts w (argv fromNone) = (.ended (.error .indexError) [], w) :=
  ⟨table_average_zero le _ (thirty 6) ts w fromNone fromSix (thirtyReq 6) ⟨false, [], none, false⟩ 6 30
      (none_command _ _ _ _ (aggr_means 6 (.inr rfl))) (six_command _ _ _ _ (aggr_means 6 (.inr rfl)))
      (thirty_asked ts [] (by simp) hs 6) (thirty_asked ts _ (by simp) hs 6) rfl (thirty_zero 6 (by decide)) (by decide),
    table_average_zero_fails le _ (thirty 1) ts w fromNone (thirtyReq 1) ⟨false, [], none, false⟩ id 1 30
      (none_command _ _ _ _ (aggr_means 1 (.inl rfl))) (thirty_asked ts [] (by simp) hs 1) rfl
      (thirty_zero 1 (by decide)) (by rintro ao h; injection h with h; rw [← h])
      (show ∀ m ∈ sixToThirty, named ⟨"tp".toList, none, none, none, none⟩ m = true → _ by decide +kernel)
      (.inl ⟨.inr rfl, rfl⟩) (by decide) (by decide)⟩

/-- C177 with two files. -/
example : CommandRun.run (fun _ => none) (twoSite (joined none).file (later (-9999) (.fin 7)).file (.str "30".toList) (meansOf 6))
      (argv (fromNone ++ [(.apart "-I".toList "after.grb".toList, "inputFile2".toList, .str "after.grb".toList)])) =
    CommandRun.run (fun _ => none) (twoSite (joined none).file (later (-9999) (.fin 7)).file (.str "30".toList) (meansOf 6))
      (argv (fromSix ++ [(.apart "-I".toList "after.grb".toList, "inputFile2".toList, .str "after.grb".toList)])) := by
  refine two_file_command_average_zero _ _ _ _ (thirtyReq 6) "after.grb".toList 6 30 (six 5 18 (-9999) fun _ => .fin 7)
    (with_second (none_command _ _ _ _ (aggr_means 6 (.inr rfl))) _ (by decide) (by decide))
    (with_second (six_command _ _ _ _ (aggr_means 6 (.inr rfl))) _ (by decide) (by decide)) rfl ?_ (by decide)
  exact {
    indexed := rfl
    name := show "tp".toList.map Char.toUpper ≠ "tp".toList by decide +kernel
    average := ⟨_, rfl, rfl, rfl⟩
    positive := by decide
    start := rfl
    last := ⟨12, show LastStep (joined none).file ⟨"tp".toList, none, none, none, none⟩ 12 from
      ⟨by decide +kernel, by decide +kernel⟩, rfl⟩
    steps := show StepsDiffer (joined none).file ⟨"tp".toList, none, none, none, none⟩ from
      steps_of (by decide +kernel) (by decide +kernel)
    some := show taken (joined none).file ⟨"tp".toList, none, none, none, none⟩ 0 30 ≠ [] from
      fun h => absurd (congrArg List.length h) (by decide +kernel)
    grid := ⟨10, show ∀ m ∈ taken (joined none).file ⟨"tp".toList, none, none, none, none⟩ 0 30, _ by decide +kernel⟩
    ends := show ((taken (joined none).file ⟨"tp".toList, none, none, none, none⟩ 0 30).map GMsg.endStep).Nodup by
      decide +kernel
    missing := ⟨-9999, show ∀ m ∈ taken (joined none).file ⟨"tp".toList, none, none, none, none⟩ 0 30,
      m.missingValue = .fin (-9999) by decide +kernel⟩
    dates := show ∀ m ∈ taken (joined none).file ⟨"tp".toList, none, none, none, none⟩ 0 30,
      (reference m).isSome = true by decide +kernel
    indexed2 := rfl
    grid2 := ⟨5, show ∀ m ∈ taken (later (-9999) (.fin 7)).file ⟨"tp".toList, none, none, none, none⟩ 0 30, _ by
      decide +kernel⟩
    ends2 := show ((taken (later (-9999) (.fin 7)).file ⟨"tp".toList, none, none, none, none⟩ 0 30).map
      GMsg.endStep).Nodup by decide +kernel
    dates2 := show ∀ m ∈ taken (later (-9999) (.fin 7)).file ⟨"tp".toList, none, none, none, none⟩ 0 30,
      (reference m).isSome = true by decide +kernel
    first2 := ⟨List.mem_filter.2 ⟨List.mem_cons_self, by decide +kernel⟩,
      show ∀ m ∈ taken (later (-9999) (.fin 7)).file ⟨"tp".toList, none, none, none, none⟩ 0 30, 18 ≤ m.endStep by
        decide +kernel⟩ }

end Demo

end PyG2P
