import Verif.Props.CommandRun
import Verif.Props.NetcdfRun

/-! # C152–C154 — commands with netCDF output -/

namespace PyG2P
open ArgParse CommandRun
variable {n k : Nat}

namespace Spec

/-- The unit of the values: the one of the conversion named in the command file, else the one of the parameter. -/
def UnitIn (cs : Conversions) (v : JVal) (unit u : Str) : Prop :=
  (v = .null ∧ u = unit) ∨
  ∃ (pre : List ConvEntry) (c : ConvEntry) (post : List ConvEntry), v = .str c.id ∧ c.id ≠ [] ∧
    entries cs = pre ++ c :: post ∧ (∀ y ∈ pre, y.id ≠ c.id) ∧ u = c.unit

/-- What command line and command file say about the data set: its name is made of prefix and aggregation. -/
structure NcRequested (s : Site n k) (items : List (Written × Str × JVal)) (cf : CmdFile) (r : Request) (o : NcOut) :
    Prop where
  path : o.path = inFolder r.outDir (r.namePrefix ++ "_".toList ++
    (match r.aggr with | none => "None" | some a => a.type).toList ++ ".nc".toList)
  longName : o.longName = (s.describe r.shortName).1
  unit : ∃ cs, Dict.get? s.parameters r.shortName = some cs ∧ UnitIn cs cf.applyConversion (s.describe r.shortName).2 o.unit
  stepUnits : Chosen items cf.base s.tblDir s.geoDir .outputStepUnits o.stepUnits
  validMin : Chosen items cf.base s.tblDir s.geoDir .validMin o.validMin
  validMax : Chosen items cf.base s.tblDir s.geoDir .validMax o.validMax
  valueFormat : Chosen items cf.base s.tblDir s.geoDir .valueFormat o.valueFormat
  offset : Chosen items cf.base s.tblDir s.geoDir .offset o.offset
  scaleFactor : Chosen items cf.base s.tblDir s.geoDir .scaleFactor o.scaleFactor
  float : o.float = s.float
  overflow : o.overflow = s.overflow

/-- `NcRequested` for the command file of the command. -/
def NcCommand (s : Site n k) (items : List (Written × Str × JVal)) (r : Request) (o : NcOut) : Prop :=
  ∀ cmd, LastGiven items "commandsFile".toList (.str cmd) → NcRequested s items (s.commands (located s.cwd cmd)) r o

end Spec

namespace CommandRun

theorem unit_of {cs : Conversions} {v : JVal} {unit u : Str} (h : Spec.UnitIn cs v unit u) : unitOf cs v unit = u := by
  unfold unitOf
  rcases h with ⟨rfl, rfl⟩ | ⟨pre, c, post, rfl, hne, he, hpre, rfl⟩
  · rfl
  · have hg : getConversion cs c.id = .ok c := ((parameter_lookup.1 cs c.id).1 c).2 ⟨pre, post, he, rfl, hpre⟩
    rw [if_pos (show (JVal.str c.id).truthy = true from decide_eq_true hne)]
    show (match getConversion cs c.id with | .error e => _ | .ok c => _) = _
    rw [hg]

theorem name_type {a : Option (JAggr × JVal)} {r : Option AggrOpts} (h : Spec.AggrIn a r) :
    (nameType a).getD "None".toList = (match r with | none => "None" | some a => a.type).toList := by
  rcases h with ⟨rfl, rfl⟩ | ⟨x, hw, st, ty, zero, rfl, -, -, hty, -, rfl, -⟩
  · rfl
  · unfold nameType
    dsimp only
    rw [hty]
    rfl

/-- What the program finds about the data set. -/
theorem nc_out (s : Site n k) (items : List (Spec.Written × Str × JVal)) (r : Spec.Request) (o : NcOut)
    (hnc : Spec.NcCommand s items r o) (d : Dict Str JVal) (cmd : Str) (a : Option (JAggr × Bool × Bool)) (u : JVal)
    (hlast : Spec.LastGiven items "commandsFile".toList (.str cmd))
    (hread : readCommands s d = .ok (s.commands (Spec.located s.cwd cmd)))
    (hreq : Spec.Requested s items (s.commands (Spec.located s.cwd cmd)) r)
    (hopt : ∀ o x, Spec.Chosen items (s.commands (Spec.located s.cwd cmd)).base s.tblDir s.geoDir o x →
      optValue (cliOf d) (s.commands (Spec.located s.cwd cmd)).base s.tblDir s.geoDir o = .ok x) :
    ncOut s d (defined r (s.commands (Spec.located s.cwd cmd)) a) ⟨Spec.folder r.outDir, r.level, u⟩ = .ok o := by
  have hn := hnc cmd hlast
  obtain ⟨cs, hcs, hk, hconv⟩ := hreq.conversion
  obtain ⟨cs', hcs', hunit⟩ := hn.unit
  rw [hcs] at hcs'
  have hcs' := Option.some.inj hcs'
  subst hcs'
  have hpar : getParameter s.known s.parameters (s.commands (Spec.located s.cwd cmd)).base.shortName = .ok cs :=
    ((parameter_lookup.2 Conversions s.known s.parameters _).1 cs).2 ⟨by rw [← hreq.shortName]; exact hcs, hk⟩
  unfold ncOut
  simp only [hread, hpar, ok_bind, hopt _ _ hn.stepUnits, hopt _ _ hn.validMin, hopt _ _ hn.validMax,
    hopt _ _ hn.valueFormat, hopt _ _ hn.offset, hopt _ _ hn.scaleFactor]
  show Except.ok _ = Except.ok _
  congr 1
  have e1 : osJoin (Spec.folder r.outDir) (ncName (textOf (defined r (s.commands (Spec.located s.cwd cmd)) a).namePrefix)
      (nameType (s.commands (Spec.located s.cwd cmd)).aggr)) = o.path := by
    rw [join_folder, hn.path]
    unfold ncName
    rw [name_type hreq.aggr]
    congr 1
    show r.namePrefix ++ '_' :: _ ++ _ = r.namePrefix ++ ['_'] ++ _ ++ _
    simp only [List.append_assoc, List.cons_append, List.nil_append]
  have e2 : (s.describe (defined r (s.commands (Spec.located s.cwd cmd)) a).shortName).1 = o.longName := by
    rw [hn.longName]
    show (s.describe (s.commands (Spec.located s.cwd cmd)).base.shortName).1 = _
    rw [← hreq.shortName]
  have e3 : unitOf cs (s.commands (Spec.located s.cwd cmd)).applyConversion
      (s.describe (defined r (s.commands (Spec.located s.cwd cmd)) a).shortName).2 = o.unit := by
    refine unit_of ?_
    show Spec.UnitIn cs _ (s.describe (s.commands (Spec.located s.cwd cmd)).base.shortName).2 _
    rw [← hreq.shortName]
    exact hunit
  rw [e1, e2, e3, ← hn.float, ← hn.overflow]

/-- What the program makes of a command with another format than PCRaster. -/
theorem netcdf_core (ne : NumExpr) (s : Site n k) (items : List (Spec.Written × Str × JVal)) (r : Spec.Request)
    (hcom : Spec.Command s items r) (hfmt : r.format ≠ "pcraster".toList) (o : NcOut) (hnc : Spec.NcCommand s items r o) :
    CommandRun.run ne s (Spec.argv items) =
      netcdfRun ne (Spec.runOf s r) (decide (r.format = "netcdf".toList)) o := by
  obtain ⟨d, cmd, a, u, hp, hnoc, hno2, hlast, hread, hreq, hctx, hfile, hopt⟩ := command_core s items r hcom
  have ho := nc_out s items r o hnc d cmd a u hlast hread hreq hopt
  unfold CommandRun.run
  rw [hp]
  dsimp only
  rw [hnoc, if_neg (by decide), hctx]
  dsimp only
  rw [hno2, if_neg (by decide), if_neg (show ¬ (defined r (s.commands (Spec.located s.cwd cmd)) a).format = _ from
    fun h => hfmt (JVal.str.inj h)), hfile, ho]
  dsimp only
  congr 1
  show decide (JVal.str r.format = _) = _
  rw [decide_eq_decide]
  exact ⟨fun h => JVal.str.inj h, fun h => congrArg _ h⟩

/-- A data set that is made is stored. -/
theorem netcdf_stored (ne : NumExpr) (x : FileIn n k) (o : NcOut) (d : Dataset k) (h : x.dataset ne o = .ok (some d)) :
    netcdfRun ne x true o = .stored d := by
  unfold FileIn.dataset at h
  unfold netcdfRun
  cases hset : x.settings with
  | error e => rw [hset] at h; cases h
  | ok r =>
    rw [hset] at h
    dsimp only at h
    have hi : ∃ info, (Reader.gribInfo x.file x.reader (infoCmd x.sel)).1 = .ok info := by
      unfold FileIn.settings at hset
      cases hg : Reader.gribInfo x.file x.reader (infoCmd x.sel) with
      | mk i r1 =>
        rw [hg] at hset
        cases i with
        | error e => cases hset
        | ok info => exact ⟨info, rfl⟩
    obtain ⟨info, hi⟩ := hi
    rw [hi]
    dsimp only
    cases hm : r.maps ne with
    | error e => rw [hm] at h; cases h
    | ok ms =>
      rw [hm] at h
      dsimp only at h
      cases h0 : x.firstSelected with
      | none => rw [h0] at h; cases h
      | some m0 =>
        rw [h0] at h
        dsimp only at h ⊢
        rw [h]

end CommandRun

open Spec TableApply Converter Aggregator

/-- The cut-off of a request. -/
theorem CommandRun.cut_of (s : Site n k) (r : Spec.Request) :
    ((Spec.runOf s r).conversion.isSome && (Spec.runOf s r).cutOff) = (r.conversion.map Prod.snd).getD false := by
  show ((r.conversion.map fun p => some p.1).isSome && (r.conversion.map Prod.snd).getD false) = _
  cases r.conversion <;> simp

/-- **C152.** A command without aggregation with netCDF output (C144, C149): it stores one data set, named after prefix
and aggregation in the output folder, with the description of the parameter, the unit of the conversion, and packing,
valid range and step unit as asked for; one record for each message that the options ask for, in the order of the end
steps, showing what the interpolation table gives for the converted field (corrected for height). -/
theorem command_netcdf_plain_run (ne : NumExpr) (s : Site n k) (items : List (Spec.Written × Str × JVal))
    (r : Spec.Request) (hcom : Spec.Command s items r) (hfmt : r.format = "netcdf".toList) (o : NcOut)
    (hnc : Spec.NcCommand s items r o) {fmt : ValueFormat} {scale offset : ℚ} {lo hi : Option ℚ}
    (ho : NcMeans o fmt scale offset lo hi) (req : Option Str) (hreq : unitAsked o.stepUnits req)
    (f : Num → Num) (mv : ℚ) (file : List (GMsg (Arr n))) (hfile : s.grib r.input = (file, true))
    (hup : r.shortName.map Char.toUpper ≠ r.shortName) (hagg : r.aggr = none)
    (p : SelPar) (hp : p = ⟨r.shortName, r.level, r.dataTime, r.dataDate, r.member⟩)
    (E : Int) (hE : Spec.LastStep file p E) (sel : List (GMsg (Arr n)))
    (hsel : sel = Spec.taken file p (r.tstart.getD 0) (Spec.windowEnd r.tend E)) (hne : sel ≠ [])
    (nj : Int) (hnj : ∀ m ∈ sel, m.nj = nj) (hdiff : sel.Pairwise Spec.Differ)
    (hmv : ∀ m ∈ sel, m.missingValue = .fin mv) (ref : Int × Nat) (href : ∀ m ∈ sel, reference m = some ref)
    (u : Str) (hu : ∀ m ∈ sel, m.get? "stepUnits".toList = some (.str u)) (hk : ∃ name, (u, name) ∈ gribUnits)
    (hconv : Means ne (r.conversion.map fun c => some c.1) f)
    (t : Table k) (ht : t = (s.tables r.mode r.latMap r.lonMap r.input).1) (hfit : Fits t n)
    (mask : Fin k → Bool) (hmask : (s.clone r.clone).1 = some mask) :
    ∃ (ord : List (GMsg (Arr n))) (d : Dataset k), ord.Perm sel ∧
      ord.Pairwise (fun a b => a.endStep ≤ b.endStep) ∧ CommandRun.run ne s (Spec.argv items) = .stored d ∧
      Describes d o r.namePrefix ref fmt scale offset lo hi ∧ TimesIn u req (ord.map GMsg.endStep) d.time ∧
      d.records.length = ord.length ∧
      ∀ (j : Nat) m rec, ord[j]? = some m → d.records[j]? = some rec → ∀ c V,
        V = finalCell (r.correction.map fun q => (s.heights q.1 q.2.1 q.2.2).1) (cellOf t (s.mvOf r.latMap)
            (Spec.cutField ((r.conversion.map Prod.snd).getD false) (convertedField mv f m.values)) c) c →
        Shows d lo hi (mask c = true ∨ V = s.mvOf r.latMap) V (rec c) := by
  subst hp ht
  have e1 : (Spec.runOf s r).file = file := congrArg Prod.fst hfile
  have e2 : (Spec.runOf s r).indexable = true := congrArg Prod.snd hfile
  have e3 : (Spec.runOf s r).mask = some mask := hmask
  obtain ⟨ord, d, h1, h2, h3, h4, h5, h6, h7⟩ := netcdf_plain_run ne (Spec.runOf s r) f mv e2 hup hagg E
    (by rw [e1]; exact hE) sel (by rw [e1]; exact hsel) hne nj hnj hdiff hmv ref href u hu hk hconv hfit
    (by rw [e3]; intro h; cases h) o ho req hreq
  refine ⟨ord, d, h1, h2, ?_, h4, h5, h6, fun j m rec hj hr c V hV => ?_⟩
  · rw [netcdf_core ne s items r hcom (by rw [hfmt]; decide) o hnc, decide_eq_true hfmt]
    exact netcdf_stored ne _ o d h3
  · have := h7 j m rec hj hr c V (by rw [CommandRun.cut_of]; exact hV)
    rw [e3] at this
    exact this

/-- **C153**, accumulation (C145, C150). -/
theorem command_netcdf_accumulation_run (ne : NumExpr) (s : Site n k) (items : List (Spec.Written × Str × JVal))
    (r : Spec.Request) (hcom : Spec.Command s items r) (hfmt : r.format = "netcdf".toList) (o : NcOut)
    (hnc : Spec.NcCommand s items r o) {fmt : ValueFormat} {scale offset : ℚ} {lo up : Option ℚ}
    (ho : NcMeans o fmt scale offset lo up) (req : Option Str) (hreq : unitAsked o.stepUnits req)
    (f : Num → Num) (mv : ℚ) (file : List (GMsg (Arr n))) (hfile : s.grib r.input = (file, true))
    (hup : r.shortName.map Char.toUpper ≠ r.shortName) (a : Int) (half forced : Bool)
    (hagg : r.aggr = some ⟨a, "accumulation", half, forced⟩) (hpos : 0 < a)
    (p : SelPar) (hp : p = ⟨r.shortName, r.level, r.dataTime, r.dataDate, r.member⟩)
    (E : Int) (hE : Spec.LastStep file p E) (hreg : Spec.StepsDiffer file p) (start hi : Int)
    (hst : start = r.tstart.getD 0) (hhi : hi = Spec.windowEnd r.tend E) (sel : List (GMsg (Arr n)))
    (hsel : sel = Spec.taken file p (max 0 (start - a)) hi) (hne : sel ≠ [])
    (nj : Int) (hnj : ∀ m ∈ sel, m.nj = nj) (hdiff : (sel.map GMsg.endStep).Nodup)
    (hmv : ∀ m ∈ sel, m.missingValue = .fin mv) (ref : Int × Nat) (href : ∀ m ∈ sel, reference m = some ref)
    (u : Str) (hu : ∀ m ∈ sel, m.get? "stepUnits".toList = some (.str u)) (hk : ∃ name, (u, name) ∈ gribUnits)
    (hconv : Means ne (r.conversion.map fun c => some c.1) f)
    (t : Table k) (ht : t = (s.tables r.mode r.latMap r.lonMap r.input).1) (hfit : Fits t n)
    (hcur : ∀ u, Spec.InRange (Spec.firstEnd start a) hi a u →
      (∃ m ∈ sel, m.endStep = u) ∧ (u - a = 0 ∨ ∃ m ∈ sel, m.endStep = u - a))
    (hsome : firstEnd start a ≤ hi) (mask : Fin k → Bool) (hmask : (s.clone r.clone).1 = some mask) :
    ∃ (d : Dataset k) (times : List Int), CommandRun.run ne s (Spec.argv items) = .stored d ∧
      Describes d o r.namePrefix ref fmt scale offset lo up ∧ TimesIn u req times d.time ∧
      (∀ (j : Nat) t, times[j]? = some t ↔ t = firstEnd start a + j * a ∧ t ≤ hi) ∧
      d.records.length = times.length ∧
      ∀ (j : Nat) w rec, times[j]? = some w → d.records[j]? = some rec →
        ∃ (mc : GMsg (Arr n)) (vp D : Arr n), mc ∈ sel ∧ mc.endStep = w ∧
          (if w = a ∧ (forced = true ∨ ∀ m ∈ sel, m.endStep ≠ 0) then
            (∀ i, vp.data i = 0 ∧ vp.masked i = false)
           else ∃ mp ∈ sel, mp.endStep = w - a ∧ vp = convertedField mv f mp.values) ∧
          (∀ i, D.data i = ((convertedField mv f mc.values).data i - vp.data i) * Num.ofInt r.unitTime / Num.ofInt a ∧
            D.masked i = vp.masked i) ∧
          ∀ c V, V = finalCell (r.correction.map fun q => (s.heights q.1 q.2.1 q.2.2).1) (cellOf t (s.mvOf r.latMap)
              (Spec.cutField ((r.conversion.map Prod.snd).getD false) D) c) c →
            Shows d lo up (mask c = true ∨ V = s.mvOf r.latMap) V (rec c) := by
  subst hp ht
  have e1 : (Spec.runOf s r).file = file := congrArg Prod.fst hfile
  have e2 : (Spec.runOf s r).indexable = true := congrArg Prod.snd hfile
  have e3 : (Spec.runOf s r).mask = some mask := hmask
  obtain ⟨d, times, h3, h4, h5, h6, h7, h8⟩ := netcdf_accumulation_run ne (Spec.runOf s r) f mv e2 hup _ hagg rfl a rfl
    hpos E (by rw [e1]; exact hE) (by rw [e1]; exact hreg) start hi hst hhi sel (by rw [e1]; exact hsel) hne nj hnj hdiff
    hmv ref href u hu hk hconv hfit hcur hsome (by rw [e3]; intro h; cases h) o ho req hreq
  refine ⟨d, times, ?_, h4, h5, h6, h7, fun j w rec hj hr => ?_⟩
  · rw [netcdf_core ne s items r hcom (by rw [hfmt]; decide) o hnc, decide_eq_true hfmt]
    exact netcdf_stored ne _ o d h3
  · obtain ⟨mc, vp, D, g1, g2, g3, g4, g5⟩ := h8 j w rec hj hr
    refine ⟨mc, vp, D, g1, g2, g3, g4, fun c V hV => ?_⟩
    have := g5 c V (by rw [CommandRun.cut_of]; exact hV)
    rw [e3] at this
    exact this

/-- **C153**, average (C145, C150). -/
theorem command_netcdf_average_run (ne : NumExpr) (s : Site n k) (items : List (Spec.Written × Str × JVal))
    (r : Spec.Request) (hcom : Spec.Command s items r) (hfmt : r.format = "netcdf".toList) (o : NcOut)
    (hnc : Spec.NcCommand s items r o) {fmt : ValueFormat} {scale offset : ℚ} {lo up : Option ℚ}
    (ho : NcMeans o fmt scale offset lo up) (req : Option Str) (hreq : unitAsked o.stepUnits req)
    (f : Num → Num) (mv : ℚ) (file : List (GMsg (Arr n))) (hfile : s.grib r.input = (file, true))
    (hup : r.shortName.map Char.toUpper ≠ r.shortName) (a : Int) (forced : Bool)
    (hagg : r.aggr = some ⟨a, "average", false, forced⟩) (hpos : 0 < a)
    (p : SelPar) (hp : p = ⟨r.shortName, r.level, r.dataTime, r.dataDate, r.member⟩)
    (hinst : ∀ m ∈ file, named p m = true → String.ofList m.stepType ≠ "accum")
    (E : Int) (hE : Spec.LastStep file p E) (hreg : Spec.StepsDiffer file p) (start hi : Int)
    (hst : start = r.tstart.getD 0) (h0 : start ≠ 0) (hhi : hi = Spec.windowEnd r.tend E) (sel : List (GMsg (Arr n)))
    (hsel : sel = Spec.taken file p (max 0 (start - a)) hi)
    (nj : Int) (hnj : ∀ m ∈ sel, m.nj = nj) (hdiff : (sel.map GMsg.endStep).Nodup)
    (hmv : ∀ m ∈ sel, m.missingValue = .fin mv) (ref : Int × Nat) (href : ∀ m ∈ sel, reference m = some ref)
    (u : Str) (hu : ∀ m ∈ sel, m.get? "stepUnits".toList = some (.str u)) (hk : ∃ name, (u, name) ∈ gribUnits)
    (hconv : Means ne (r.conversion.map fun c => some c.1) f)
    (t : Table k) (ht : t = (s.tables r.mode r.latMap r.lonMap r.input).1) (hfit : Fits t n)
    (hex : ∃ m ∈ sel, hi ≤ m.endStep) (hsome : start ≤ hi)
    (mask : Fin k → Bool) (hmask : (s.clone r.clone).1 = some mask) :
    ∃ (d : Dataset k) (times : List Int), CommandRun.run ne s (Spec.argv items) = .stored d ∧
      Describes d o r.namePrefix ref fmt scale offset lo up ∧ TimesIn u req times d.time ∧
      (∀ (j : Nat) t, times[j]? = some t ↔ t = start + j * a ∧ t ≤ hi) ∧
      d.records.length = times.length ∧
      ∀ (j : Nat) w rec, times[j]? = some w → d.records[j]? = some rec →
        ∃ (F : Int → GMsg (Arr n)) (D : Arr n),
          (∀ h, w - a < h → h ≤ w → F h ∈ sel ∧ h ≤ (F h).endStep ∧
            ∀ m ∈ sel, h ≤ m.endStep → (F h).endStep ≤ m.endStep) ∧
          (∀ i, D.data i = ((List.range a.toNat).map fun (y : Nat) =>
              (convertedField mv f (F (w - a + 1 + (y : Int))).values).data i).sum / Num.ofInt a ∧
            D.masked i = false) ∧
          ∀ c V, V = finalCell (r.correction.map fun q => (s.heights q.1 q.2.1 q.2.2).1) (cellOf t (s.mvOf r.latMap)
              (Spec.cutField ((r.conversion.map Prod.snd).getD false) D) c) c →
            Shows d lo up (mask c = true ∨ V = s.mvOf r.latMap) V (rec c) := by
  subst hp ht
  have e1 : (Spec.runOf s r).file = file := congrArg Prod.fst hfile
  have e2 : (Spec.runOf s r).indexable = true := congrArg Prod.snd hfile
  have e3 : (Spec.runOf s r).mask = some mask := hmask
  obtain ⟨d, times, h3, h4, h5, h6, h7, h8⟩ := netcdf_average_run ne (Spec.runOf s r) f mv e2 hup _ hagg rfl rfl a rfl
    hpos (by rw [e1]; exact hinst) E (by rw [e1]; exact hE) (by rw [e1]; exact hreg) start hi hst h0 hhi sel
    (by rw [e1]; exact hsel) nj hnj hdiff hmv ref href u hu hk hconv hfit hex hsome (by rw [e3]; intro h; cases h) o ho
    req hreq
  refine ⟨d, times, ?_, h4, h5, h6, h7, fun j w rec hj hr => ?_⟩
  · rw [netcdf_core ne s items r hcom (by rw [hfmt]; decide) o hnc, decide_eq_true hfmt]
    exact netcdf_stored ne _ o d h3
  · obtain ⟨F, D, g1, g2, g5⟩ := h8 j w rec hj hr
    refine ⟨F, D, g1, g2, fun c V hV => ?_⟩
    have := g5 c V (by rw [CommandRun.cut_of]; exact hV)
    rw [e3] at this
    exact this

/-! ## Failures -/

/-- The information on the file is read if it holds messages of the parameter. -/
theorem CommandRun.info_read (x : FileIn n k) (hidx : x.indexable = true) (E : Int) (hE : LastStep x.file x.sel E) :
    ∃ info, (Reader.gribInfo x.file x.reader (infoCmd x.sel)).1 = .ok info := by
  have hsrc0 : x.reader.src = .index x.sel.perturbation.isSome := by
    unfold FileIn.reader Reader.init
    rw [hidx]
    rfl
  obtain ⟨info, r1, hinfo, -⟩ := info_facts x.file x.reader _ hsrc0 x.sel E hE
  exact ⟨info, by rw [hinfo]⟩

/-- If the maps can be made, they can be written as PCRaster maps. -/
theorem CommandRun.files_of_maps {m : Nat} (ne : NumExpr) (r : RunIn n m k) (ms : List (Int × Arr k))
    (h : r.maps ne = .ok ms) : ∃ files, r.pcraster ne = .ok files := by
  unfold RunIn.maps at h
  unfold RunIn.pcraster
  cases hf : r.fields ne with
  | error e => rw [hf] at h; cases h
  | ok vc =>
    obtain ⟨values, change⟩ := vc
    rw [hf] at h
    dsimp only at h ⊢
    obtain ⟨l1, g1⟩ := mapM_get _ _ _ h
    apply mapM_some_ok
    intro q hq
    obtain ⟨j, hj⟩ := List.mem_iff_getElem?.1 hq
    unfold writePcraster at hj
    rw [List.getElem?_map, List.getElem?_zipIdx] at hj
    cases hb : (gridLoop change false values)[j]? with
    | none => rw [hb] at hj; cases hj
    | some e =>
      obtain ⟨t, v, b⟩ := e
      rw [hb] at hj
      have hw : (writeNetcdf r.render change values)[j]? = some (t.endStep, r.render b v) := by
        unfold writeNetcdf
        rw [List.getElem?_map, hb]
        rfl
      have hlt : j < ms.length := by
        rw [l1]
        exact (List.getElem?_eq_some_iff.1 hw).1
      have hg := g1 j _ _ hw (List.getElem?_eq_getElem hlt)
      dsimp only at hg
      rw [← Option.some.inj hj]
      dsimp only
      cases ha : r.render b v with
      | error e => rw [ha] at hg; cases hg
      | ok a => exact ⟨_, rfl⟩

/-- **C154**, no message of the parameter: status 0 in every format. -/
theorem command_netcdf_no_messages (ne : NumExpr) (s : Site n k) (items : List (Spec.Written × Str × JVal))
    (r : Spec.Request) (hcom : Spec.Command s items r) (hfmt : r.format ≠ "pcraster".toList) (o : NcOut)
    (hnc : Spec.NcCommand s items r o) (hidx : (s.grib r.input).2 = true)
    (h : ∀ m ∈ (s.grib r.input).1, m.shortName ≠ r.shortName) :
    CommandRun.run ne s (Spec.argv items) = .ended (.ok 0) [] := by
  rw [netcdf_core ne s items r hcom hfmt o hnc]
  have hi : (Reader.gribInfo (Spec.runOf s r).file (Spec.runOf s r).reader (infoCmd (Spec.runOf s r).sel)).1 =
      .error (.app 3000) := by
    have hsrc0 : (Spec.runOf s r).reader.src = .index (Spec.runOf s r).sel.perturbation.isSome := by
      unfold FileIn.reader Reader.init
      rw [show (Spec.runOf s r).indexable = true from hidx]
      rfl
    obtain ⟨g, r1, hg, -, he⟩ := info_found (Spec.runOf s r).file (Spec.runOf s r).reader _ hsrc0 (Spec.runOf s r).sel
    have hgn : g = [] := he (by
      rw [List.filter_eq_nil_iff]
      intro m hm
      unfold Spec.named
      rw [show decide (m.shortName = (Spec.runOf s r).sel.shortName) = false from decide_eq_false (h m hm)]
      simp)
    exact ((C27_no_messages _ _ r1 _ g hg).1 hgn).1
  unfold netcdfRun
  rw [hi]
  rfl

/-- **C154** is violated: where the file holds messages of the parameter, but the maps cannot be made (for example
because the options ask for none of them, or a step is missing), the PCRaster command ends with the status of the
error; the netCDF command always ends with AttributeError. -/
theorem command_netcdf_crash (ne : NumExpr) (s : Site n k) (items : List (Spec.Written × Str × JVal))
    (r : Spec.Request) (hcom : Spec.Command s items r) (hfmt : r.format ≠ "pcraster".toList) (o : NcOut)
    (hnc : Spec.NcCommand s items r o) (hidx : (s.grib r.input).2 = true)
    (E : Int) (hE : LastStep (s.grib r.input).1 ⟨r.shortName, r.level, r.dataTime, r.dataDate, r.member⟩ E)
    (e : PyErr) (he : (Spec.runOf s r).pcraster ne = .error e) :
    CommandRun.run ne s (Spec.argv items) = .ended (.error .attributeError) [] := by
  rw [netcdf_core ne s items r hcom hfmt o hnc]
  obtain ⟨info, hi⟩ := CommandRun.info_read (Spec.runOf s r) hidx E hE
  unfold netcdfRun
  rw [hi]
  dsimp only
  cases hset : (Spec.runOf s r).settings with
  | error e' => rfl
  | ok rr =>
    dsimp only
    cases hm : rr.maps ne with
    | error e' => rfl
    | ok ms =>
      exfalso
      unfold FileIn.pcraster at he
      rw [hset] at he
      change rr.pcraster ne = .error e at he
      obtain ⟨files, hf⟩ := CommandRun.files_of_maps ne rr ms hm
      rw [hf] at he
      cases he

/-- **C154.** Where the PCRaster maps of a command can be written, its netCDF command ends with the data set or with the
error of writing it (C151), which is not caught; a format of the command file that is not known ends with
AttributeError. -/
theorem command_netcdf_written (ne : NumExpr) (s : Site n k) (items : List (Spec.Written × Str × JVal))
    (r : Spec.Request) (hcom : Spec.Command s items r) (hfmt : r.format ≠ "pcraster".toList) (o : NcOut)
    (hnc : Spec.NcCommand s items r o) (files : List (Str × (Fin k → Num)))
    (hf : (Spec.runOf s r).pcraster ne = .ok files) :
    (r.format = "netcdf".toList →
      (∀ d, (Spec.runOf s r).dataset ne o = .ok (some d) → CommandRun.run ne s (Spec.argv items) = .stored d) ∧
      (∀ e, (Spec.runOf s r).dataset ne o = .error e → CommandRun.run ne s (Spec.argv items) = .ended (failure e) [])) ∧
    (r.format ≠ "netcdf".toList → CommandRun.run ne s (Spec.argv items) = .ended (.error .attributeError) []) := by
  rw [netcdf_core ne s items r hcom hfmt o hnc]
  obtain ⟨rr, ms, m0, ref, hset, hms, -, -, h0, -, -⟩ := maps_of_files ne (Spec.runOf s r) files hf
  have hi : ∃ info, (Reader.gribInfo (Spec.runOf s r).file (Spec.runOf s r).reader
      (infoCmd (Spec.runOf s r).sel)).1 = .ok info := by
    unfold FileIn.settings at hset
    cases hg : Reader.gribInfo (Spec.runOf s r).file (Spec.runOf s r).reader (infoCmd (Spec.runOf s r).sel) with
    | mk i r1 =>
      rw [hg] at hset
      cases i with
      | error e => cases hset
      | ok info => exact ⟨info, rfl⟩
  obtain ⟨info, hi⟩ := hi
  refine ⟨fun hn => ⟨fun d hd => ?_, fun e he => ?_⟩, fun hn => ?_⟩
  · rw [decide_eq_true hn]
    exact netcdf_stored ne _ o d hd
  · rw [decide_eq_true hn]
    unfold netcdfRun
    unfold FileIn.dataset at he
    rw [hset] at he
    dsimp only at he
    rw [hms] at he
    dsimp only at he
    rw [h0] at he
    dsimp only at he
    rw [hi]
    dsimp only
    rw [hset]
    dsimp only
    rw [hms, h0]
    dsimp only
    rw [he]
    dsimp only
    rw [status_eq]
  · rw [decide_eq_false hn]
    unfold netcdfRun
    rw [hi]
    dsimp only
    rw [hset]
    dsimp only
    rw [hms, h0]

/-! ## A concrete command -/

namespace Demo

/-- the command of `rainSite`, with netCDF output: packed, with times in days. -/
def ncCmd : CmdFile :=
  { rainCmd with
    base := ⟨"tp".toList, .null, .str "18".toList, .null, .null, .null, .null, .str "netcdf".toList, .str "R".toList,
      .str "0.5".toList, .int 1, .int 0, .null, .str "i2".toList, .str "D".toList, .null, .null⟩ }

/-- a clone with its only cell inside; it has a mask. -/
def ncSite : Site 2 1 :=
  { rainSite with
    commands := fun _ => ncCmd
    grib := fun _ => (rainH, true)
    clone := fun _ => (some fun _ => false, .nan) }

def ncReq : Spec.Request := { rainReq with format := "netcdf".toList }

/-- the data set asked for. -/
def ncAsked : NcOut where
  path := "out/R_accumulation.nc".toList
  longName := "rain".toList
  unit := "mm".toList
  stepUnits := .str "D".toList
  validMin := .int 0
  validMax := .null
  valueFormat := .str "i2".toList
  offset := .int 1
  scaleFactor := .str "0.5".toList
  float := rainSite.float
  overflow := rainSite.overflow

theorem nc_command : Spec.Command ncSite rainItems ncReq where
  written := rain_command.written
  cwd := by decide
  file := by
    refine ⟨"./cmd.json".toList, ⟨[], _, rainItems.tail, rfl, by decide +kernel⟩, by decide +kernel, ?_⟩
    have ab : ∀ name : String, name.toList ∉ (rainItems.map fun q => q.2.1) → Spec.Absent rainItems name := rain_absent
    constructor
    · exact ⟨[rainItems.head (by decide)], _, rainItems.drop 2, rfl, by decide +kernel⟩
    · exact Or.inl ⟨rainItems.take 3, _, [], rfl, by decide⟩
    · rfl
    · exact Or.inl ⟨⟨rainItems.take 2, _, rainItems.drop 3, rfl, by decide +kernel⟩, by decide⟩
    · exact Or.inr ⟨ab "end" (by decide +kernel), by decide +kernel, by decide +kernel⟩
    · exact Or.inr ⟨ab "dataTime" (by decide +kernel), by decide +kernel, by decide +kernel⟩
    · exact Or.inr ⟨ab "dataDate" (by decide +kernel), by decide +kernel, by decide +kernel⟩
    · exact Or.inl ⟨rfl, rfl⟩
    · exact Or.inr ⟨ab "perturbationNumber" (by decide +kernel), rfl⟩
    · exact ⟨.one mm, rfl, rfl, Or.inr ⟨[], mm, [], true, rfl, by decide, rfl, by simp, rfl, Or.inr (Or.inl rfl)⟩⟩
    · exact Or.inl ⟨Or.inl rfl, rfl⟩
    · exact Or.inr rfl
    · exact in_maps "lat.map".toList (by decide) (by decide)
    · exact in_maps "lon.map".toList (by decide) (by decide)
    · refine ⟨[.lit "/maps/clone.map".toList], fun _ => [], ?_, rfl, ?_, fun v => List.not_mem_nil, rfl⟩
      · intro g hg
        rw [List.mem_singleton] at hg
        subst hg
        exact ⟨by decide, by decide⟩
      · intro v hv
        rw [List.mem_singleton] at hv
        cases hv
    · exact Or.inr ⟨_, _, 6, "accumulation", false, rfl, Or.inl rfl, by decide, rfl, by decide, rfl, Or.inr (Or.inl ⟨rfl, rfl⟩)⟩
    · exact Or.inl ⟨rfl, rfl⟩
    · exact Or.inr ⟨ab "namePrefix" (by decide +kernel), by decide +kernel, by decide +kernel⟩
    · exact Or.inr ⟨ab "fmap" (by decide +kernel), by decide +kernel, by decide +kernel⟩
    · exact Or.inr ⟨ab "ext" (by decide +kernel), by decide +kernel, by decide +kernel⟩
    · exact Or.inr ⟨ab "format" (by decide +kernel), by decide +kernel, by decide +kernel⟩
  run := rain_command.run
  acceptable := by
    constructor
    · decide +kernel
    · decide +kernel
    · decide +kernel
    · exact Or.inr (Or.inl (by decide +kernel))
    · rintro a b h1 h2
      injection h1 with h1; injection h2 with h2
      omega
    · rintro f g d h; cases h

theorem nc_asked : Spec.NcCommand ncSite rainItems ncReq ncAsked := by
  intro cmd _
  show Spec.NcRequested ncSite rainItems ncCmd ncReq ncAsked
  have ab : ∀ name : String, name.toList ∉ (rainItems.map fun q => q.2.1) → Spec.Absent rainItems name := rain_absent
  constructor
  · decide +kernel
  · rfl
  · exact ⟨.one mm, rfl, Or.inr ⟨[], mm, [], rfl, by decide, rfl, by simp, rfl⟩⟩
  · exact Or.inr ⟨ab "outputStepUnits" (by decide +kernel), by decide +kernel, by decide +kernel⟩
  · exact Or.inr ⟨ab "validMin" (by decide +kernel), by decide +kernel, by decide +kernel⟩
  · exact Or.inr ⟨ab "validMax" (by decide +kernel), by decide +kernel, by decide +kernel⟩
  · exact Or.inr ⟨ab "valueFormat" (by decide +kernel), by decide +kernel, by decide +kernel⟩
  · exact Or.inr ⟨ab "offset" (by decide +kernel), by decide +kernel, by decide +kernel⟩
  · exact Or.inr ⟨ab "scaleFactor" (by decide +kernel), by decide +kernel, by decide +kernel⟩
  · rfl
  · rfl

theorem ncAsked_means : NcMeans ncAsked .i2 (1 / 2) 1 (some 0) none :=
  ⟨.inr rfl, .inr (.inr (.inl ⟨_, rfl, rfl⟩)), by norm_num, .inl ⟨1, rfl, by norm_num⟩,
    .inr ⟨(by intro h; cases h), 0, .inl ⟨0, rfl, by norm_num⟩, rfl⟩, .inl ⟨rfl, rfl⟩⟩

/-- C153. -/
example : ∃ d, CommandRun.run (fun _ => none) ncSite (Spec.argv rainItems) = .stored d ∧ d.records.length = 2 ∧
    d.path = "out/R_accumulation.nc".toList ∧ d.unit = "mm".toList := by
  obtain ⟨d, times, hd, hdesc, -, hget, hl, -⟩ := command_netcdf_accumulation_run (fun _ => none) ncSite rainItems ncReq
    nc_command rfl ncAsked nc_asked ncAsked_means (some "D".toList) (.inr ⟨_, rfl, rfl⟩) id (-9999) rainH rfl
    (by decide +kernel) 6 false false rfl (by decide) _ rfl 18 rainH_last rainH_steps 12 18
    rfl rfl _ rfl (fun h => absurd (congrArg List.length h) (by decide +kernel)) 10
    (by decide +kernel) (by decide +kernel) (by decide +kernel) (20240501, 12) (by decide +kernel) "h".toList
    (by decide +kernel) hours (.inl ⟨.inr rfl, rfl⟩) _ rfl (fun _ => Nat.le_succ 1)
    (by
      rintro t ⟨j, rfl, hj⟩
      have hf : firstEnd 12 6 = 12 := rfl
      rw [hf] at hj ⊢
      have : j = 0 ∨ j = 1 := by omega
      rcases this with rfl | rfl
      · exact ⟨by decide +kernel, .inr (by decide +kernel)⟩
      · exact ⟨by decide +kernel, .inr (by decide +kernel)⟩) (by decide) (fun _ => false) rfl
  refine ⟨d, hd, ?_, hdesc.path, hdesc.unit⟩
  rw [hl]
  have h1 : times[1]? = some 18 := (hget 1 18).2 (by decide)
  have h2 : ¬ (2 < times.length) := by
    intro h
    have := ((hget 2 times[2]).1 (List.getElem?_eq_getElem h))
    have hf : firstEnd 12 6 = 12 := rfl
    rw [hf] at this
    omega
  have := (List.getElem?_eq_some_iff.1 h1).1
  omega

/-- the data set in short. -/
def stored {k : Nat} (r : Result (k + 1)) : Option (String × List ℚ × List ℚ × Option ℚ) :=
  match r with
  | .stored d => some (String.ofList d.path, d.records.map (fun f => f 0), d.time.values, d.validMin)
  | _ => none

example : stored (CommandRun.run (fun _ => none) ncSite (Spec.argv rainItems)) =
    some ("out/R_accumulation.nc", [22, 30], [1 / 2, 3 / 4], some (-2)) := by decide +kernel

/-- the same command with other GRIB files, tables and clones. -/
theorem with_data {n k : Nat} {s : Site n k} {items : List (Spec.Written × Str × JVal)} {r : Spec.Request}
    (h : Spec.Command s items r) (g : Str → List (GMsg (Arr n)) × Bool) (t : Str → Str → Str → Str → Table k × Table k) :
    Spec.Command { s with grib := g, tables := t } items r := by
  obtain ⟨cmd, h1, h2, h3⟩ := h.file
  exact ⟨h.written, h.cwd, ⟨cmd, h1, h2, { h3 with }⟩, h.run, h.acceptable⟩

theorem with_data_nc {n k : Nat} {s : Site n k} {items : List (Spec.Written × Str × JVal)} {r : Spec.Request} {o : NcOut}
    (h : Spec.NcCommand s items r o) (g : Str → List (GMsg (Arr n)) × Bool)
    (t : Str → Str → Str → Str → Table k × Table k) : Spec.NcCommand { s with grib := g, tables := t } items r o :=
  fun cmd hc => { h cmd hc with }

/-- C154: a file without the parameter. -/
example : CommandRun.run (fun _ => none) ({ ncSite with grib := fun _ => ([], true), tables := ncSite.tables } : Site 2 1)
    (Spec.argv rainItems) = .ended (.ok 0) [] :=
  command_netcdf_no_messages _ _ rainItems ncReq (with_data nc_command _ _) (by decide) ncAsked (with_data_nc nc_asked _ _) rfl
    (by intro m hm; cases hm)

/-- a table that points outside the source grid. -/
def badTables : Str → Str → Str → Str → Table 1 × Table 1 := fun _ _ _ _ => (.nearest fun _ => 7, .nearest fun _ => 7)

/-- C154: the table does not fit the messages. -/
example : CommandRun.run (fun _ => none) { ncSite with grib := ncSite.grib, tables := badTables }
    (Spec.argv rainItems) = .ended (.error .attributeError) [] :=
  command_netcdf_crash (fun _ => none) _ rainItems ncReq (with_data nc_command _ _) (by decide) ncAsked
    (with_data_nc nc_asked _ _) rfl 18 rainH_last .indexError (by
      have : (match (Spec.runOf { ncSite with grib := ncSite.grib, tables := badTables } ncReq).pcraster (fun _ => none) with
        | .error e => decide (e = .indexError) | .ok _ => false) = true := by decide +kernel
      generalize (Spec.runOf { ncSite with grib := ncSite.grib, tables := badTables } ncReq).pcraster (fun _ => none) = o
        at this
      cases o with
      | ok f => cases this
      | error e => rw [of_decide_eq_true this])

/-- C154: the PCRaster maps of the command can be written. -/
example : ∃ files, (Spec.runOf ncSite ncReq).pcraster (fun _ => none) = .ok files ∧
    (∀ d, (Spec.runOf ncSite ncReq).dataset (fun _ => none) ncAsked = .ok (some d) →
      CommandRun.run (fun _ => none) ncSite (Spec.argv rainItems) = .stored d) := by
  have h : ((Spec.runOf ncSite ncReq).pcraster fun _ => none).toOption.isSome = true := by decide +kernel
  cases hf : (Spec.runOf ncSite ncReq).pcraster fun _ => none with
  | error e => rw [hf] at h; cases h
  | ok files =>
    exact ⟨files, rfl, ((command_netcdf_written (fun _ => none) ncSite rainItems ncReq nc_command (by decide) ncAsked nc_asked
      files hf).1 rfl).1⟩

/-- C154: with a format that is not known. -/
example : outcome (CommandRun.run (fun _ => none)
    { ncSite with commands := fun _ => { ncCmd with base := { ncCmd.base with format := .str "tiff".toList } } }
    (Spec.argv rainItems)) = some (.error .attributeError, []) := by decide +kernel

/-- C154: with a window that holds no message. -/
example : outcome (CommandRun.run (fun _ => none)
    { ncSite with commands := fun _ => { ncCmd with base := { ncCmd.base with tend := .str "3".toList }, aggr := none } }
    (["-c", "./cmd.json", "--inputFile=rain.grb", "-o", "out"].map String.toList)) = some (.error .attributeError, []) := by decide +kernel

end Demo
end PyG2P
