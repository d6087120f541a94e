import Verif.Props.CommandRun
import Verif.Props.TwoFiles

/-! # C155–C157 — commands with two input files -/

namespace PyG2P
open ArgParse CommandRun
variable {n k : Nat}

namespace Spec

/-- A command (see `Command`) with a second input file `input2`. -/
structure TwoFileCommand (s : Site n k) (items : List (Written × Str × JVal)) (r : Request) (input2 : Str) : Prop where
  written : ∀ q ∈ items, Sets q.1 q.2.1 q.2.2
  cwd : s.cwd ≠ []
  file : ∃ cmd, LastGiven items "commandsFile".toList (.str cmd) ∧ s.fs.isFile (located s.cwd cmd) = true ∧
    Requested s items (s.commands (located s.cwd cmd)) r
  run : Absent items "downloadConf" ∧ Absent items "checkConf"
  second : LastGiven items "inputFile2".toList (.str input2) ∧ input2 ≠ []
  acceptable : Acceptable s.fs r

/-- The run that it describes: the table of the second grid is that of the second file. -/
def runOfTwo (s : Site n k) (r : Request) (input2 : Str) : FileIn n k :=
  { runOf s r with table2 := (s.tables r.mode r.latMap r.lonMap input2).1 }

end Spec

/-- **C155**, settings: a command with a second input file runs on both files, with the request that command line and
command file make. -/
theorem two_file_command_settings (ne : NumExpr) (s : Site n k) (items : List (Spec.Written × Str × JVal))
    (r : Spec.Request) (input2 : Str) (hcom : Spec.TwoFileCommand s items r input2) (hfmt : r.format = "pcraster".toList) :
    CommandRun.run ne s (Spec.argv items) =
      match (Spec.runOfTwo s r input2).pcrasterTwo ne (s.second input2).2 with
      | .ok files => .ended (.ok 0) (files.map fun p => (Spec.inFolder r.outDir p.1, p.2))
      | .error e => .ended (Spec.failure e) [] := by
  obtain ⟨h, hcwd, hfile, ⟨hW, hK⟩, ⟨h2, hne2⟩, hacc⟩ := hcom
  obtain ⟨d, cmd, a, u, hp, hnoc, hd, -, -, -, -, hctx, hfile, -⟩ :=
    CommandRun.command_made s items r h hcwd hfile hW hK hacc
  have htext : asText d "inputFile2" = some input2 := by
    unfold asText; rw [hd _ _ h2]
  have hgiven : given (asText d "inputFile2") = true := by
    rw [htext]
    cases input2 with
    | nil => exact absurd rfl hne2
    | cons c t => rfl
  unfold CommandRun.run
  rw [hp]
  dsimp only
  rw [hnoc, if_neg (by decide), hctx]
  dsimp only
  rw [if_pos hgiven, htext, if_pos (show (defined r (s.commands (Spec.located s.cwd cmd)) a).format = _ from congrArg JVal.str hfmt), hfile]
  show (match (Spec.runOfTwo s r input2).pcrasterTwo ne (s.second input2).2 with | .error e => _ | .ok files => _) = _
  cases (Spec.runOfTwo s r input2).pcrasterTwo ne (s.second input2).2 with
  | error e => dsimp only; rw [status_eq]
  | ok files =>
    dsimp only
    simp only [join_folder]

open Spec TableApply Converter Aggregator

/-- **C155**, accumulation. A command with two input files and accumulation over `a` hours: the maps of C137 are written
to the output folder with the names asked for, numbered through, and the exit status is 0. -/
theorem two_file_command_accumulation_run (ne : NumExpr) (s : Site n k) (items : List (Spec.Written × Str × JVal))
    (r : Spec.Request) (input2 : Str) (hcom : Spec.TwoFileCommand s items r input2) (hfmt : r.format = "pcraster".toList)
    (hpre : r.namePrefix ≠ [] ∧ r.namePrefix.head? ≠ some '/')
    (f : Num → Num) (mv : ℚ) (file : List (GMsg (Arr n))) (hfile : s.grib r.input = (file, true))
    {m : Nat} (file2 : List (GMsg (Arr m))) (hfile2 : s.second input2 = ⟨m, ⟨file2, true⟩⟩)
    (hup : r.shortName.map Char.toUpper ≠ r.shortName) (a : Int) (half forced : Bool)
    (hagg : r.aggr = some ⟨a, "accumulation", half, forced⟩) (hpos : 0 < a)
    (p : SelPar) (hp : p = ⟨r.shortName, r.level, r.dataTime, r.dataDate, r.member⟩)
    (E : Int) (hE : Spec.LastStep file p E) (hreg : Spec.StepsDiffer file p) (start hi : Int)
    (hst : start = r.tstart.getD 0) (hhi : hi = Spec.windowEnd r.tend E)
    (sel : List (GMsg (Arr n))) (hsel : sel = Spec.taken file p (max 0 (start - a)) hi) (hne : sel ≠ [])
    (sel2 : List (GMsg (Arr m))) (hsel2 : sel2 = Spec.taken file2 p (max 0 (start - a)) hi)
    (nj : Int) (hnj : ∀ q ∈ sel, q.nj = nj) (hdiff : (sel.map GMsg.endStep).Nodup)
    (nj2 : Int) (hnj2 : ∀ q ∈ sel2, q.nj = nj2) (hdiff2 : (sel2.map GMsg.endStep).Nodup)
    (hmv : ∀ q ∈ sel, q.missingValue = .fin mv) (hdate : ∀ q ∈ sel, (Spec.reference q).isSome = true)
    (hdate2 : ∀ q ∈ sel2, (Spec.reference q).isSome = true)
    (hconv : Means ne (r.conversion.map fun c => some c.1) f)
    (t : Table k) (ht : t = (s.tables r.mode r.latMap r.lonMap r.input).1) (hfit : Fits t n)
    (t2 : Table k) (ht2 : t2 = (s.tables r.mode r.latMap r.lonMap input2).1) (hfit2 : Fits t2 m)
    (c : GMsg (Arr m)) (hc : c ∈ sel2) (hcmin : ∀ q ∈ sel2, c.endStep ≤ q.endStep)
    (hse : c.startStep ≤ c.endStep) (h0 : 0 ≤ c.endStep) (hend : c.endStep + a < hi)
    (hcur : ∀ t, Spec.InRange (Spec.firstEnd start a) c.startStep a t →
      (∃ q ∈ sel, q.endStep = t) ∧ (t - a = 0 ∨ ∃ q ∈ sel, q.endStep = t - a))
    (hcur2 : ∀ t, Spec.InRange (c.endStep + a) hi a t →
      (∃ q ∈ sel2, q.endStep = t) ∧ (t - a = 0 ∨ ∃ q ∈ sel2, q.endStep = t - a)) :
    ∃ files n1 n2, CommandRun.run ne s (Spec.argv items) = .ended (.ok 0) files ∧ files.length = n1 + n2 ∧
      (∀ j : Nat, j < n1 ↔ Spec.firstEnd start a + j * a ≤ c.startStep) ∧
      (∀ j : Nat, j < n2 ↔ c.endStep + a + j * a ≤ hi) ∧
      (∀ (j : Nat) u, u = Spec.firstEnd start a + j * a → u ≤ c.startStep →
        ∃ D, Spec.AccumulatedFrom mv f sel forced r.unitTime a u D ∧
          files[j]? = some (Spec.folder r.outDir ++ pcrName r.namePrefix r.fmap r.ext (j + 1), fun i =>
            shown (s.clone r.clone).1 (s.clone r.clone).2
              (finalCell (r.correction.map fun q => (s.heights q.1 q.2.1 q.2.2).1) (cellOf t (s.mvOf r.latMap)
                (Spec.cutField ((r.conversion.map Prod.snd).getD false) D) i) i) i)) ∧
      ∀ (j : Nat) u, u = c.endStep + a + j * a → u ≤ hi →
        ∃ D, Spec.AccumulatedFrom mv f sel2 forced r.unitTime a u D ∧
          files[n1 + j]? = some (Spec.folder r.outDir ++ pcrName r.namePrefix r.fmap r.ext ((n1 : Int) + j + 1), fun i =>
            shown (s.clone r.clone).1 (s.clone r.clone).2
              (finalCell (r.correction.map fun q => (s.heights q.1 q.2.1 q.2.2).2) (cellOf t2 (s.mvOf r.latMap)
                (Spec.cutField ((r.conversion.map Prod.snd).getD false) D) i) i) i) := by
  subst hp ht ht2
  have e1 : (Spec.runOfTwo s r input2).file = file := congrArg Prod.fst hfile
  have e2 : (Spec.runOfTwo s r input2).indexable = true := congrArg Prod.snd hfile
  obtain ⟨files, n1, n2, h1, h2, h3, h4, h5, h6⟩ := two_file_accumulation_run ne (Spec.runOfTwo s r input2) ⟨file2, true⟩
    f mv e2 rfl hup _ hagg rfl a rfl hpos E (by rw [e1]; exact hE) (by rw [e1]; exact hreg) start hi hst hhi sel
    (by rw [e1]; exact hsel) hne sel2 hsel2 nj hnj hdiff nj2 hnj2 hdiff2 hmv hdate hdate2 hconv hfit hfit2 c hc hcmin hse
    h0 hend hcur hcur2
  have hcut : ((Spec.runOfTwo s r input2).conversion.isSome && (Spec.runOfTwo s r input2).cutOff) =
      (r.conversion.map Prod.snd).getD false := by
    show ((r.conversion.map fun p => some p.1).isSome && (r.conversion.map Prod.snd).getD false) = _
    cases r.conversion <;> simp
  refine ⟨(files.map fun p => (Spec.inFolder r.outDir p.1, p.2)), n1, n2, ?_, ?_, h3, h4, ?_, ?_⟩
  · rw [two_file_command_settings ne s items r input2 hcom hfmt, hfile2, h1]
  · rw [List.length_map]; exact h2
  · intro j u hu hle
    obtain ⟨D, g1, g2⟩ := h5 j u hu hle
    refine ⟨D, g1, ?_⟩
    rw [List.getElem?_map, g2, hcut]
    show some (Spec.inFolder r.outDir (pcrName r.namePrefix r.fmap r.ext (j + 1)), _) = _
    rw [CommandRun.map_place _ _ _ _ _ hpre.1 hpre.2]
    rfl
  · intro j u hu hle
    obtain ⟨D, g1, g2⟩ := h6 j u hu hle
    refine ⟨D, g1, ?_⟩
    rw [List.getElem?_map, g2, hcut]
    show some (Spec.inFolder r.outDir (pcrName r.namePrefix r.fmap r.ext ((n1 : Int) + j + 1)), _) = _
    rw [CommandRun.map_place _ _ _ _ _ hpre.1 hpre.2]
    rfl

/-- **C155**, average (without half weights, from a start different from 0, of messages that are not accumulated). -/
theorem two_file_command_average_run (ne : NumExpr) (s : Site n k) (items : List (Spec.Written × Str × JVal))
    (r : Spec.Request) (input2 : Str) (hcom : Spec.TwoFileCommand s items r input2) (hfmt : r.format = "pcraster".toList)
    (hpre : r.namePrefix ≠ [] ∧ r.namePrefix.head? ≠ some '/')
    (f : Num → Num) (mv : ℚ) (file : List (GMsg (Arr n))) (hfile : s.grib r.input = (file, true))
    {m : Nat} (file2 : List (GMsg (Arr m))) (hfile2 : s.second input2 = ⟨m, ⟨file2, true⟩⟩)
    (hup : r.shortName.map Char.toUpper ≠ r.shortName) (a : Int) (forced : Bool)
    (hagg : r.aggr = some ⟨a, "average", false, forced⟩) (hpos : 0 < a)
    (hinst : ∀ q ∈ file, String.ofList q.stepType ≠ "accum")
    (p : SelPar) (hp : p = ⟨r.shortName, r.level, r.dataTime, r.dataDate, r.member⟩)
    (E : Int) (hE : Spec.LastStep file p E) (hreg : Spec.StepsDiffer file p) (start hi : Int)
    (hst : start = r.tstart.getD 0) (hstart : start ≠ 0) (hhi : hi = Spec.windowEnd r.tend E)
    (sel : List (GMsg (Arr n))) (hsel : sel = Spec.taken file p (max 0 (start - a)) hi)
    (sel2 : List (GMsg (Arr m))) (hsel2 : sel2 = Spec.taken file2 p (max 0 (start - a)) hi)
    (nj : Int) (hnj : ∀ q ∈ sel, q.nj = nj) (hdiff : (sel.map GMsg.endStep).Nodup)
    (nj2 : Int) (hnj2 : ∀ q ∈ sel2, q.nj = nj2) (hdiff2 : (sel2.map GMsg.endStep).Nodup)
    (hmv : ∀ q ∈ sel, q.missingValue = .fin mv) (hdate : ∀ q ∈ sel, (Spec.reference q).isSome = true)
    (hdate2 : ∀ q ∈ sel2, (Spec.reference q).isSome = true)
    (hconv : Means ne (r.conversion.map fun c => some c.1) f)
    (t : Table k) (ht : t = (s.tables r.mode r.latMap r.lonMap r.input).1) (hfit : Fits t n)
    (t2 : Table k) (ht2 : t2 = (s.tables r.mode r.latMap r.lonMap input2).1) (hfit2 : Fits t2 m)
    (c : GMsg (Arr m)) (hc : c ∈ sel2) (hcmin : ∀ q ∈ sel2, c.endStep ≤ q.endStep)
    (hse : c.startStep ≤ c.endStep) (h0 : 0 ≤ c.endStep) (hend : c.endStep + a < hi)
    (hex : ∃ q ∈ sel, c.startStep ≤ q.endStep) (hex2 : ∃ q ∈ sel2, hi ≤ q.endStep) :
    ∃ files n1 n2, CommandRun.run ne s (Spec.argv items) = .ended (.ok 0) files ∧ files.length = n1 + n2 ∧
      (∀ j : Nat, j < n1 ↔ start + j * a ≤ c.startStep) ∧
      (∀ j : Nat, j < n2 ↔ c.endStep + a + j * a ≤ hi) ∧
      (∀ (j : Nat) u, u = start + j * a → u ≤ c.startStep →
        ∃ D, Spec.MeanFrom mv f sel a u D ∧
          files[j]? = some (Spec.folder r.outDir ++ pcrName r.namePrefix r.fmap r.ext (j + 1), fun i =>
            shown (s.clone r.clone).1 (s.clone r.clone).2
              (finalCell (r.correction.map fun q => (s.heights q.1 q.2.1 q.2.2).1) (cellOf t (s.mvOf r.latMap)
                (Spec.cutField ((r.conversion.map Prod.snd).getD false) D) i) i) i)) ∧
      ∀ (j : Nat) u, u = c.endStep + a + j * a → u ≤ hi →
        ∃ D, Spec.MeanFrom mv f sel2 a u D ∧
          files[n1 + j]? = some (Spec.folder r.outDir ++ pcrName r.namePrefix r.fmap r.ext ((n1 : Int) + j + 1), fun i =>
            shown (s.clone r.clone).1 (s.clone r.clone).2
              (finalCell (r.correction.map fun q => (s.heights q.1 q.2.1 q.2.2).2) (cellOf t2 (s.mvOf r.latMap)
                (Spec.cutField ((r.conversion.map Prod.snd).getD false) D) i) i) i) := by
  subst hp ht ht2
  have e1 : (Spec.runOfTwo s r input2).file = file := congrArg Prod.fst hfile
  have e2 : (Spec.runOfTwo s r input2).indexable = true := congrArg Prod.snd hfile
  obtain ⟨files, n1, n2, h1, h2, h3, h4, h5, h6⟩ := two_file_average_run ne (Spec.runOfTwo s r input2) ⟨file2, true⟩
    f mv e2 rfl hup _ hagg rfl rfl a rfl hpos (by rw [e1]; exact hinst) E (by rw [e1]; exact hE) (by rw [e1]; exact hreg)
    start hi hst hstart hhi sel
    (by rw [e1]; exact hsel) sel2 hsel2 nj hnj hdiff nj2 hnj2 hdiff2 hmv hdate hdate2 hconv hfit hfit2 c hc hcmin hse
    h0 hend hex hex2
  have hcut : ((Spec.runOfTwo s r input2).conversion.isSome && (Spec.runOfTwo s r input2).cutOff) =
      (r.conversion.map Prod.snd).getD false := by
    show ((r.conversion.map fun p => some p.1).isSome && (r.conversion.map Prod.snd).getD false) = _
    cases r.conversion <;> simp
  refine ⟨(files.map fun p => (Spec.inFolder r.outDir p.1, p.2)), n1, n2, ?_, ?_, h3, h4, ?_, ?_⟩
  · rw [two_file_command_settings ne s items r input2 hcom hfmt, hfile2, h1]
  · rw [List.length_map]; exact h2
  · intro j u hu hle
    obtain ⟨D, g1, g2⟩ := h5 j u hu hle
    refine ⟨D, g1, ?_⟩
    rw [List.getElem?_map, g2, hcut]
    show some (Spec.inFolder r.outDir (pcrName r.namePrefix r.fmap r.ext (j + 1)), _) = _
    rw [CommandRun.map_place _ _ _ _ _ hpre.1 hpre.2]
    rfl
  · intro j u hu hle
    obtain ⟨D, g1, g2⟩ := h6 j u hu hle
    refine ⟨D, g1, ?_⟩
    rw [List.getElem?_map, g2, hcut]
    show some (Spec.inFolder r.outDir (pcrName r.namePrefix r.fmap r.ext ((n1 : Int) + j + 1)), _) = _
    rw [CommandRun.map_place _ _ _ _ _ hpre.1 hpre.2]
    rfl

/-! ## C156, C157 -/

/-- **C156** (violated). A two-file command that does not give an end, whose second file begins after the last step of the
first: nothing is written, and the exit status is 0. -/
theorem two_file_command_without_end (ne : NumExpr) (s : Site n k) (items : List (Spec.Written × Str × JVal))
    (r : Spec.Request) (input2 : Str) (hcom : Spec.TwoFileCommand s items r input2) (hfmt : r.format = "pcraster".toList)
    (mv : ℚ) (file : List (GMsg (Arr n))) (hfile : s.grib r.input = (file, true))
    {m : Nat} (file2 : List (GMsg (Arr m))) (hfile2 : s.second input2 = ⟨m, ⟨file2, true⟩⟩)
    (hup : r.shortName.map Char.toUpper ≠ r.shortName) (ao : AggrOpts) (hagg : r.aggr = some ao)
    (p : SelPar) (hp : p = ⟨r.shortName, r.level, r.dataTime, r.dataDate, r.member⟩)
    (E : Int) (hE : Spec.LastStep file p E) (hreg : Spec.StepsDiffer file p) (hend : r.tend = none)
    (sel : List (GMsg (Arr n))) (hsel : sel = Spec.taken file p (max 0 (r.tstart.getD 0 - ao.step)) E) (hne : sel ≠ [])
    (nj : Int) (hnj : ∀ q ∈ sel, q.nj = nj) (hdiff : (sel.map GMsg.endStep).Nodup)
    (hmv : ∀ q ∈ sel, q.missingValue = .fin mv) (hdate : ∀ q ∈ sel, (Spec.reference q).isSome = true)
    (hlate : ∀ q ∈ file2, E < q.endStep) :
    CommandRun.run ne s (Spec.argv items) = .ended (.ok 0) [] := by
  subst hp
  have e1 : (Spec.runOfTwo s r input2).file = file := congrArg Prod.fst hfile
  have e2 : (Spec.runOfTwo s r input2).indexable = true := congrArg Prod.snd hfile
  rw [two_file_command_settings ne s items r input2 hcom hfmt, hfile2,
    two_files_without_end ne (Spec.runOfTwo s r input2) ⟨file2, true⟩ mv e2 rfl hup ao hagg E (by rw [e1]; exact hE)
      (by rw [e1]; exact hreg) hend sel (by rw [e1]; exact hsel) hne nj hnj hdiff hmv hdate hlate]
  rfl

/-- A run on two files without aggregation raises `TypeError`. -/
theorem two_files_without_aggregation (ne : NumExpr) {m : Nat} (x : FileIn n k) (y : SecondFile m) (f : Num → Num) (mv : ℚ)
    (hidx : x.indexable = true) (hidx2 : y.indexable = true)
    (hup : x.sel.shortName.map Char.toUpper ≠ x.sel.shortName) (hagg : x.aggr = none)
    (E : Int) (hE : LastStep x.file x.sel E) (start hi : Int) (hst : start = x.tstart.getD 0)
    (hhi : hi = windowEnd x.tend E)
    (sel : List (GMsg (Arr n))) (hsel : sel = taken x.file x.sel start hi) (hne : sel ≠ [])
    (sel2 : List (GMsg (Arr m))) (hsel2 : sel2 = taken y.file x.sel start hi) (hne2 : sel2 ≠ [])
    (nj : Int) (hnj : ∀ q ∈ sel, q.nj = nj) (hdiff : sel.Pairwise Spec.Differ)
    (nj2 : Int) (hnj2 : ∀ q ∈ sel2, q.nj = nj2) (hdiff2 : sel2.Pairwise Spec.Differ)
    (hmv : ∀ q ∈ sel, q.missingValue = .fin mv) (hdate : ∀ q ∈ sel, (reference q).isSome = true)
    (hdate2 : ∀ q ∈ sel2, (reference q).isSome = true) (hconv : Means ne x.conversion f) :
    x.pcrasterTwo ne y = .error .typeError := by
  subst hsel hsel2
  obtain ⟨info, t2, msgs, ms, hset, -, -, hmvs, -⟩ := first_file (m := m) x hidx hup E hE start hi
    (fun step h => by
      rw [hagg, hst, hhi]
      exact window_plain x.tstart x.tend step E) hne nj hnj hdiff mv hmv hdate
  obtain ⟨msgs2, ms2, hset2, -⟩ := second_file x y hidx2 hup start hi hne2 nj2 hnj2 hdiff2 hdate2
  have hs := hset y
  rw [hset2] at hs
  dsimp only at hs
  unfold FileIn.pcrasterTwo
  rw [hs]
  dsimp only
  unfold RunIn.pcraster
  rw [fields_two ne _ f mv hmvs hconv, two_resolutions_without_aggregation_fail _ msgs2.firstStep rfl
    (by unfold FileIn.assemble convertedCtrl; rw [hagg]; rfl)]

/-- **C157** (violated). A two-file command without aggregation writes nothing: it leaves the program with an uncaught
`TypeError`. -/
theorem two_file_command_without_aggregation (ne : NumExpr) (s : Site n k) (items : List (Spec.Written × Str × JVal))
    (r : Spec.Request) (input2 : Str) (hcom : Spec.TwoFileCommand s items r input2) (hfmt : r.format = "pcraster".toList)
    (f : Num → Num) (mv : ℚ) (file : List (GMsg (Arr n))) (hfile : s.grib r.input = (file, true))
    {m : Nat} (file2 : List (GMsg (Arr m))) (hfile2 : s.second input2 = ⟨m, ⟨file2, true⟩⟩)
    (hup : r.shortName.map Char.toUpper ≠ r.shortName) (hagg : r.aggr = none)
    (p : SelPar) (hp : p = ⟨r.shortName, r.level, r.dataTime, r.dataDate, r.member⟩)
    (E : Int) (hE : Spec.LastStep file p E) (start hi : Int) (hst : start = r.tstart.getD 0)
    (hhi : hi = Spec.windowEnd r.tend E)
    (sel : List (GMsg (Arr n))) (hsel : sel = Spec.taken file p start hi) (hne : sel ≠ [])
    (sel2 : List (GMsg (Arr m))) (hsel2 : sel2 = Spec.taken file2 p start hi) (hne2 : sel2 ≠ [])
    (nj : Int) (hnj : ∀ q ∈ sel, q.nj = nj) (hdiff : sel.Pairwise Spec.Differ)
    (nj2 : Int) (hnj2 : ∀ q ∈ sel2, q.nj = nj2) (hdiff2 : sel2.Pairwise Spec.Differ)
    (hmv : ∀ q ∈ sel, q.missingValue = .fin mv) (hdate : ∀ q ∈ sel, (Spec.reference q).isSome = true)
    (hdate2 : ∀ q ∈ sel2, (Spec.reference q).isSome = true)
    (hconv : Means ne (r.conversion.map fun c => some c.1) f) :
    CommandRun.run ne s (Spec.argv items) = .ended (.error .typeError) [] := by
  subst hp
  have e1 : (Spec.runOfTwo s r input2).file = file := congrArg Prod.fst hfile
  have e2 : (Spec.runOfTwo s r input2).indexable = true := congrArg Prod.snd hfile
  rw [two_file_command_settings ne s items r input2 hcom hfmt, hfile2,
    two_files_without_aggregation ne (Spec.runOfTwo s r input2) ⟨file2, true⟩ f mv e2 rfl hup hagg E
      (by rw [e1]; exact hE) start hi hst hhi sel (by rw [e1]; exact hsel) hne sel2 hsel2 hne2 nj hnj hdiff nj2 hnj2
      hdiff2 hmv hdate hdate2 hconv]
  rfl


/-- **C158** (violated). Messages accumulated from the start of the forecast, as rain is: the messages of the second file
start at step 0, so nothing is written for the steps of the first file; the first map written is that of the second
interval of the second file. -/
theorem two_file_command_accumulated_from_start (ne : NumExpr) (s : Site n k) (items : List (Spec.Written × Str × JVal))
    (r : Spec.Request) (input2 : Str) (hcom : Spec.TwoFileCommand s items r input2) (hfmt : r.format = "pcraster".toList)
    (hpre : r.namePrefix ≠ [] ∧ r.namePrefix.head? ≠ some '/')
    (f : Num → Num) (mv : ℚ) (file : List (GMsg (Arr n))) (hfile : s.grib r.input = (file, true))
    {m : Nat} (file2 : List (GMsg (Arr m))) (hfile2 : s.second input2 = ⟨m, ⟨file2, true⟩⟩)
    (hup : r.shortName.map Char.toUpper ≠ r.shortName) (a : Int) (half forced : Bool)
    (hagg : r.aggr = some ⟨a, "accumulation", half, forced⟩) (hpos : 0 < a)
    (p : SelPar) (hp : p = ⟨r.shortName, r.level, r.dataTime, r.dataDate, r.member⟩)
    (E : Int) (hE : Spec.LastStep file p E) (hreg : Spec.StepsDiffer file p) (start hi : Int)
    (hst : start = r.tstart.getD 0) (hs0 : 0 ≤ start) (hhi : hi = Spec.windowEnd r.tend E)
    (sel : List (GMsg (Arr n))) (hsel : sel = Spec.taken file p (max 0 (start - a)) hi) (hne : sel ≠ [])
    (sel2 : List (GMsg (Arr m))) (hsel2 : sel2 = Spec.taken file2 p (max 0 (start - a)) hi)
    (nj : Int) (hnj : ∀ q ∈ sel, q.nj = nj) (hdiff : (sel.map GMsg.endStep).Nodup)
    (nj2 : Int) (hnj2 : ∀ q ∈ sel2, q.nj = nj2) (hdiff2 : (sel2.map GMsg.endStep).Nodup)
    (hmv : ∀ q ∈ sel, q.missingValue = .fin mv) (hdate : ∀ q ∈ sel, (Spec.reference q).isSome = true)
    (hdate2 : ∀ q ∈ sel2, (Spec.reference q).isSome = true)
    (hconv : Means ne (r.conversion.map fun c => some c.1) f)
    (t : Table k) (ht : t = (s.tables r.mode r.latMap r.lonMap r.input).1) (hfit : Fits t n)
    (t2 : Table k) (ht2 : t2 = (s.tables r.mode r.latMap r.lonMap input2).1) (hfit2 : Fits t2 m)
    (c : GMsg (Arr m)) (hc : c ∈ sel2) (hcmin : ∀ q ∈ sel2, c.endStep ≤ q.endStep)
    (hzero : c.startStep = 0) (h0 : 0 ≤ c.endStep) (hend : c.endStep + a < hi)
    (hcur2 : ∀ t, Spec.InRange (c.endStep + a) hi a t →
      (∃ q ∈ sel2, q.endStep = t) ∧ (t - a = 0 ∨ ∃ q ∈ sel2, q.endStep = t - a)) :
    ∃ files, CommandRun.run ne s (Spec.argv items) = .ended (.ok 0) files ∧
      (∀ j : Nat, j < files.length ↔ c.endStep + a + j * a ≤ hi) ∧
      ∀ (j : Nat) u, u = c.endStep + a + j * a → u ≤ hi →
        ∃ D, Spec.AccumulatedFrom mv f sel2 forced r.unitTime a u D ∧
          files[j]? = some (Spec.folder r.outDir ++ pcrName r.namePrefix r.fmap r.ext (j + 1), fun i =>
            shown (s.clone r.clone).1 (s.clone r.clone).2
              (finalCell (r.correction.map fun q => (s.heights q.1 q.2.1 q.2.2).2) (cellOf t2 (s.mvOf r.latMap)
                (Spec.cutField ((r.conversion.map Prod.snd).getD false) D) i) i) i) := by
  have hfirst : 0 < Spec.firstEnd start a := by
    unfold Spec.firstEnd
    split <;> omega
  obtain ⟨files, n1, n2, h1, h2, h3, h4, -, h6⟩ := two_file_command_accumulation_run ne s items r input2 hcom hfmt hpre f mv
    file hfile file2 hfile2 hup a half forced hagg hpos p hp E hE hreg start hi hst hhi sel hsel hne sel2 hsel2 nj hnj hdiff
    nj2 hnj2 hdiff2 hmv hdate hdate2 hconv t ht hfit t2 ht2 hfit2 c hc hcmin (by omega) h0 hend
    (by
      rintro u ⟨j, rfl, hj⟩
      have : 0 ≤ (j : Int) * a := Int.mul_nonneg (Int.natCast_nonneg j) (Int.le_of_lt hpos)
      omega) hcur2
  have hn1 : n1 = 0 := by
    by_contra hn
    have := (h3 0).1 (by omega)
    simp only [Nat.cast_zero, zero_mul, add_zero] at this
    omega
  subst hn1
  refine ⟨files, h1, ?_, ?_⟩
  · intro j
    rw [h2, Nat.zero_add]
    exact h4 j
  · intro j u hu hle
    obtain ⟨D, g1, g2⟩ := h6 j u hu hle
    refine ⟨D, g1, ?_⟩
    rw [Nat.zero_add, Nat.cast_zero, zero_add] at g2
    exact g2

/-! ## Concrete commands -/

theorem last_append {items : List (Spec.Written × Str × JVal)} {w0 : Spec.Written} {dest : Str} {v : JVal} {name : Str} {x : JVal}
    (h : Spec.LastGiven items name x) (hq : dest ≠ name) : Spec.LastGiven (items ++ [(w0, dest, v)]) name x := by
  obtain ⟨pre, w, post, he, hp⟩ := h
  refine ⟨pre, w, post ++ [(w0, dest, v)], by rw [he, List.append_assoc, List.cons_append], ?_⟩
  intro y hy
  rcases List.mem_append.1 hy with hy | hy
  · exact hp y hy
  · rw [List.mem_singleton] at hy
    rw [hy]
    exact hq

theorem absent_append {items : List (Spec.Written × Str × JVal)} {w0 : Spec.Written} {dest : Str} {v : JVal} {name : String}
    (h : Spec.Absent items name) (hq : dest ≠ name.toList) : Spec.Absent (items ++ [(w0, dest, v)]) name := by
  intro y hy
  rcases List.mem_append.1 hy with hy | hy
  · exact h y hy
  · rw [List.mem_singleton] at hy
    rw [hy]
    exact hq

theorem typed_append {items : List (Spec.Written × Str × JVal)} {w0 : Spec.Written} {dest : Str} {v : JVal} {name : String} {d x : JVal}
    (h : Spec.Typed items name d x) (hq : dest ≠ name.toList) : Spec.Typed (items ++ [(w0, dest, v)]) name d x :=
  h.imp (last_append · hq) fun h => ⟨absent_append h.1 hq, h.2⟩

theorem chosen_append {items : List (Spec.Written × Str × JVal)} {w0 : Spec.Written} {dest : Str} {v : JVal} {j : Json} {a b : Str}
    {o : Opt} {x : JVal} (h : Spec.Chosen items j a b o x) (hq : dest ≠ (Spec.optName o).toList) :
    Spec.Chosen (items ++ [(w0, dest, v)]) j a b o x :=
  h.imp (fun h => ⟨last_append h.1 hq, h.2⟩) fun h => ⟨absent_append h.1 hq, h.2⟩

/-- A command with one input file and `-I input2` after it is a two-file command with the same request. -/
theorem with_second {s : Site n k} {items : List (Spec.Written × Str × JVal)} {r : Spec.Request} (h : Spec.Command s items r)
    (input2 : Str) (h0 : input2 ≠ []) (hd : input2.head? ≠ some '-') :
    Spec.TwoFileCommand s (items ++ [(.apart "-I".toList input2, "inputFile2".toList, .str input2)]) r input2 where
  written := by
    intro q hq
    rcases List.mem_append.1 hq with hq | hq
    · exact h.written q hq
    · rw [List.mem_singleton] at hq
      subst hq
      exact ⟨("-I", "--inputFile2", .text), by unfold Spec.valued; simp, Or.inl rfl,
        (show "inputFile2".toList = List.drop 2 "--inputFile2".toList by decide), rfl, Or.inl hd⟩
  cwd := h.cwd
  file := by
    obtain ⟨cmd, h1, h2, h3⟩ := h.file
    refine ⟨cmd, last_append h1 (by decide), h2, { h3 with
      input := last_append h3.input (by decide)
      outDir := typed_append h3.outDir (by decide)
      tstart := chosen_append h3.tstart (by decide)
      tend := chosen_append h3.tend (by decide)
      dataTime := chosen_append h3.dataTime (by decide)
      dataDate := chosen_append h3.dataDate (by decide)
      member := typed_append h3.member (by decide)
      namePrefix := chosen_append h3.namePrefix (by decide)
      fmap := chosen_append h3.fmap (by decide)
      ext := chosen_append h3.ext (by decide)
      format := chosen_append h3.format (by decide) }⟩
  run := ⟨absent_append h.run.1 (by decide), absent_append h.run.2.1 (by decide)⟩
  second := ⟨⟨items, _, [], rfl, by intro y hy; cases hy⟩, h0⟩
  acceptable := h.acceptable

namespace Demo

theorem steps_of {α : Type} {file : List (GMsg α)} {p : SelPar}
    (h : ((file.filter (Spec.named p)).map GMsg.endStep).Nodup) (hl : (file.filter (Spec.named p)).length ≠ 1) :
    Spec.StepsDiffer file p := ⟨h, fun _ hq => absurd (congrArg List.length hq) hl⟩

/-- the first file: two points. -/
def early (start : Int → Int) : List (GMsg (Arr 2)) :=
  [⟨"tp".toList, start 6, 6, 10, 0, "accum".toList, .fin (-9999), noon, ⟨fun i => if i = 0 then .fin 1 else .fin 2, none⟩⟩,
    ⟨"tp".toList, start 12, 12, 10, 0, "accum".toList, .fin (-9999), noon, ⟨fun i => if i = 0 then .fin 3 else .fin 4, none⟩⟩]

/-- the second file: one point. -/
def rest (start : Int → Int) : List (GMsg (Arr 1)) :=
  [⟨"tp".toList, start 18, 18, 5, 0, "accum".toList, .fin (-9999), noon, ⟨fun _ => .fin 7, none⟩⟩,
    ⟨"tp".toList, start 24, 24, 5, 0, "accum".toList, .fin (-9999), noon, ⟨fun _ => .fin 9, none⟩⟩,
    ⟨"tp".toList, start 30, 30, 5, 0, "accum".toList, .fin (-9999), noon, ⟨fun _ => .fin 15, none⟩⟩]

/-- the first file has one more step, the first of the second file. -/
def early3 (start : Int → Int) : List (GMsg (Arr 2)) := early start ++
  [⟨"tp".toList, start 18, 18, 10, 0, "accum".toList, .fin (-9999), noon, ⟨fun i => if i = 0 then .fin 5 else .fin 7, none⟩⟩]

/-- the command file of `rainSite` with another end and aggregation. -/
def twoCmd (tend : JVal) (aggr : Option (JAggr × JVal)) : CmdFile :=
  { rainCmd with base := { rainCmd.base with tend := tend }, aggr := aggr }

def twoSite (one : List (GMsg (Arr 2))) (two : List (GMsg (Arr 1))) (tend : JVal) (aggr : Option (JAggr × JVal)) :
    Site 2 1 :=
  { rainSite with
    commands := fun _ => twoCmd tend aggr
    grib := fun _ => (one, true)
    second := fun _ => ⟨1, ⟨two, true⟩⟩
    tables := fun _ _ _ input =>
      if input = "after.grb".toList then (.nearest fun _ => 0, .nearest fun _ => 0)
      else (.nearest fun _ => 1, .nearest fun _ => 1) }

def twoReq (tend : Option Int) (aggr : Option AggrOpts) : Spec.Request := { rainReq with tend := tend, aggr := aggr }

/-- the command line. -/
def twoItems : List (Spec.Written × Str × JVal) :=
  rainItems ++ [(.apart "-I".toList "after.grb".toList, "inputFile2".toList, .str "after.grb".toList)]

theorem two_command (one : List (GMsg (Arr 2))) (two : List (GMsg (Arr 1))) (tend : JVal) (te : Option Int)
    (aggr : Option (JAggr × JVal)) (ao : Option AggrOpts)
    (htend : Spec.Chosen rainItems (twoCmd tend aggr).base [] [] .tend (JVal.ofOption .int te)) (haggr : Spec.AggrIn aggr ao)
    (hle : ∀ b, te = some b → 12 ≤ b) :
    Spec.TwoFileCommand (twoSite one two tend aggr) twoItems (twoReq te ao) "after.grb".toList := by
  refine with_second (s := twoSite one two tend aggr) (r := twoReq te ao) ⟨rain_command.written, rain_command.cwd, ?_, rain_command.run, { rain_command.acceptable with
    window := ?_ }⟩ "after.grb".toList (by decide) (by decide)
  · obtain ⟨cmd, h1, h2, h3⟩ := rain_command.file
    exact ⟨cmd, h1, h2, { h3 with tend := htend, aggr := haggr }⟩
  · rintro a b h1 h2
    injection h1 with h1
    have := hle b h2
    omega

def sixHours : Option (JAggr × JVal) := some (⟨.int 6, .str "accumulation".toList, none⟩, .null)

theorem aggr_in : Spec.AggrIn sixHours (some ⟨6, "accumulation", false, false⟩) :=
  Or.inr ⟨_, _, 6, "accumulation", false, rfl, Or.inl rfl, by decide, rfl, by decide, rfl, Or.inr (Or.inl ⟨rfl, rfl⟩)⟩

theorem end_in (aggr : Option (JAggr × JVal)) (v : JVal) (z : Option Int)
    (h : v ∉ [JVal.int 0, .num 0, .str [], .bool false])
    (hx : Spec.expected none v .null true = .ok (JVal.ofOption .int z)) :
    Spec.Chosen rainItems (twoCmd v aggr).base [] [] .tend (JVal.ofOption .int z) :=
  Or.inr ⟨rain_absent "end" (by decide +kernel), Or.inl h, hx⟩

/-- C155: what is written. -/
example : outcome (CommandRun.run (fun _ => none) (twoSite (early3 id) (rest id) (.str "30".toList) sixHours)
    (Spec.argv twoItems)) =
    some (.ok 0, [("out/R0000000.001", .fin 8), ("out/R0000000.002", .fin 12), ("out/R0000000.003", .fin 8),
      ("out/R0000000.004", .fin 24)]) := by
  decide +kernel

/-- C155: the hypotheses are met. -/
example : ∃ files n1 n2, CommandRun.run (fun _ => none) (twoSite (early3 id) (rest id) (.str "30".toList) sixHours)
    (Spec.argv twoItems) = .ended (.ok 0) files ∧ files.length = n1 + n2 ∧
      (∀ j : Nat, j < n1 ↔ 12 + (j : Int) * 6 ≤ 18) ∧ ∀ j : Nat, j < n2 ↔ 24 + (j : Int) * 6 ≤ 30 := by
  obtain ⟨files, n1, n2, h1, h2, h3, h4, -⟩ := two_file_command_accumulation_run (fun _ => none)
    (twoSite (early3 id) (rest id) (.str "30".toList) sixHours) twoItems (twoReq (some 30) (some ⟨6, "accumulation", false, false⟩)) "after.grb".toList
    (two_command _ _ _ (some 30) _ _ (end_in _ _ _ (by decide +kernel) (by decide +kernel)) aggr_in (by rintro b h; injection h with h; omega))
    rfl (by decide) id (-9999) (early3 id) rfl (rest id) rfl (by decide +kernel) 6 false false rfl (by decide) _ rfl 18
    ⟨by decide +kernel, by decide +kernel⟩
    (steps_of (by decide +kernel) (by decide +kernel)) 12 30 rfl rfl _ rfl
    (fun h => absurd (congrArg List.length h) (by decide +kernel)) _ rfl 10
    (by decide +kernel) (by decide +kernel) 5 (by decide +kernel) (by decide +kernel) (by decide +kernel)
    (by decide +kernel) (by decide +kernel) (.inl ⟨.inr rfl, rfl⟩) _ rfl (fun _ => Nat.le_succ 1) _ rfl
    (fun _ => Nat.zero_le 1) _ (List.mem_filter.2 ⟨List.mem_cons_self, by decide +kernel⟩) (by decide +kernel) (by decide)
    (by decide) (by decide)
    (by
      rintro t ⟨j, rfl, hj⟩
      have hf : firstEnd 12 6 = 12 := rfl
      rw [hf] at hj ⊢
      change _ ≤ (18 : Int) at hj
      have : j = 0 ∨ j = 1 := by omega
      rcases this with rfl | rfl
      · exact ⟨by decide +kernel, .inr (by decide +kernel)⟩
      · exact ⟨by decide +kernel, .inr (by decide +kernel)⟩)
    (by
      rintro t ⟨j, rfl, hj⟩
      change (18 : Int) + 6 + _ ≤ 30 at hj
      have : j = 0 ∨ j = 1 := by omega
      rcases this with rfl | rfl
      · exact ⟨by decide +kernel, .inr (by decide +kernel)⟩
      · exact ⟨by decide +kernel, .inr (by decide +kernel)⟩)
  exact ⟨files, n1, n2, h1, h2, h3, h4⟩

def meanHours : Option (JAggr × JVal) := some (⟨.int 6, .str "average".toList, none⟩, .null)

/-- C155, average: the hypotheses are met. -/
example : ∃ files n1 n2, CommandRun.run (fun _ => none)
    (twoSite (joined none).file (later (-9999) (.fin 7)).file (.str "30".toList) meanHours)
    (Spec.argv twoItems) = .ended (.ok 0) files ∧ files.length = n1 + n2 ∧
      (∀ j : Nat, j < n1 ↔ 12 + (j : Int) * 6 ≤ 12) ∧ ∀ j : Nat, j < n2 ↔ 24 + (j : Int) * 6 ≤ 30 := by
  obtain ⟨files, n1, n2, h1, h2, h3, h4, -⟩ := two_file_command_average_run (fun _ => none)
    (twoSite (joined none).file (later (-9999) (.fin 7)).file (.str "30".toList) meanHours) twoItems
    (twoReq (some 30) (some ⟨6, "average", false, false⟩)) "after.grb".toList
    (two_command _ _ _ (some 30) _ _ (end_in _ _ _ (by decide +kernel) (by decide +kernel))
      (Or.inr ⟨_, _, 6, "average", false, rfl, Or.inl rfl, by decide, rfl, by decide, rfl, Or.inr (Or.inl ⟨rfl, rfl⟩)⟩)
      (by rintro b h; injection h with h; omega))
    rfl (by decide) id (-9999) (joined none).file rfl (later (-9999) (.fin 7)).file rfl (by decide +kernel) 6 false rfl
    (by decide) (by decide +kernel) _ rfl 12 ⟨by decide +kernel, by decide +kernel⟩
    (steps_of (by decide +kernel) (by decide +kernel)) 12 30 rfl (by decide) rfl _ rfl _ rfl 10
    (by decide +kernel) (by decide +kernel) 5 (by decide +kernel) (by decide +kernel) (by decide +kernel)
    (by decide +kernel) (by decide +kernel) (.inl ⟨.inr rfl, rfl⟩) _ rfl (fun _ => Nat.le_succ 1) _ rfl
    (fun _ => Nat.zero_le 1) _ (List.mem_filter.2 ⟨List.mem_cons_self, by decide +kernel⟩) (by decide +kernel) (by decide)
    (by decide) (by decide) (by decide +kernel) (by decide +kernel)
  exact ⟨files, n1, n2, h1, h2, h3, h4⟩

/-- C156: without an end. -/
example : CommandRun.run (fun _ => none) (twoSite (early id) (rest id) .null sixHours) (Spec.argv twoItems) =
    .ended (.ok 0) [] :=
  two_file_command_without_end (fun _ => none) (twoSite (early id) (rest id) .null sixHours) twoItems
    (twoReq none (some ⟨6, "accumulation", false, false⟩)) "after.grb".toList
    (two_command _ _ _ none _ _ (end_in _ _ _ (by decide +kernel) (by decide +kernel)) aggr_in (by rintro b h; cases h))
    rfl (-9999) (early id) rfl (rest id) rfl (by decide +kernel) _ rfl _ rfl 12 ⟨by decide +kernel, by decide +kernel⟩
    (steps_of (by decide +kernel) (by decide +kernel)) rfl _ rfl
    (fun h => absurd (congrArg List.length h) (by decide +kernel)) 10
    (by decide +kernel) (by decide +kernel) (by decide +kernel) (by decide +kernel) (by decide +kernel)

/-- C157: without aggregation. -/
example : CommandRun.run (fun _ => none) (twoSite (early id) (rest id) (.str "30".toList) none) (Spec.argv twoItems) =
    .ended (.error .typeError) [] :=
  two_file_command_without_aggregation (fun _ => none) (twoSite (early id) (rest id) (.str "30".toList) none) twoItems
    (twoReq (some 30) none) "after.grb".toList
    (two_command _ _ _ (some 30) _ _ (end_in _ _ _ (by decide +kernel) (by decide +kernel)) (Or.inl ⟨rfl, rfl⟩)
      (by rintro b h; injection h with h; omega))
    rfl id (-9999) (early id) rfl (rest id) rfl (by decide +kernel) rfl _ rfl 12 ⟨by decide +kernel, by decide +kernel⟩ 12
    30 rfl rfl _ rfl (fun h => absurd (congrArg List.length h) (by decide +kernel)) _ rfl
    (fun h => absurd (congrArg List.length h) (by decide +kernel)) 10
    (by decide +kernel) (differ_of_ends (by decide +kernel)) 5 (by decide +kernel) (differ_of_ends (by decide +kernel))
    (by decide +kernel) (by decide +kernel) (by decide +kernel) (.inl ⟨.inr rfl, rfl⟩)

/-- C158: messages accumulated from step 0; the maps of 12 and 18 are lost. -/
example : outcome (CommandRun.run (fun _ => none) (twoSite (early fun _ => 0) (rest fun _ => 0) (.str "30".toList) sixHours)
    (Spec.argv twoItems)) =
    some (.ok 0, [("out/R0000000.001", .fin 8), ("out/R0000000.002", .fin 24)]) := by
  decide +kernel

/-- C158: the hypotheses are met. -/
example : ∃ files, CommandRun.run (fun _ => none) (twoSite (early fun _ => 0) (rest fun _ => 0) (.str "30".toList) sixHours)
    (Spec.argv twoItems) = .ended (.ok 0) files ∧ ∀ j : Nat, j < files.length ↔ 24 + (j : Int) * 6 ≤ 30 := by
  obtain ⟨files, h1, h2, -⟩ := two_file_command_accumulated_from_start (fun _ => none)
    (twoSite (early fun _ => 0) (rest fun _ => 0) (.str "30".toList) sixHours) twoItems
    (twoReq (some 30) (some ⟨6, "accumulation", false, false⟩)) "after.grb".toList
    (two_command _ _ _ (some 30) _ _ (end_in _ _ _ (by decide +kernel) (by decide +kernel)) aggr_in (by rintro b h; injection h with h; omega))
    rfl (by decide) id (-9999) (early fun _ => 0) rfl (rest fun _ => 0) rfl (by decide +kernel) 6 false false rfl (by decide) _ rfl 12
    ⟨by decide +kernel, by decide +kernel⟩
    (steps_of (by decide +kernel) (by decide +kernel)) 12 30 rfl (by decide) rfl _ rfl
    (fun h => absurd (congrArg List.length h) (by decide +kernel)) _ rfl 10
    (by decide +kernel) (by decide +kernel) 5 (by decide +kernel) (by decide +kernel) (by decide +kernel)
    (by decide +kernel) (by decide +kernel) (.inl ⟨.inr rfl, rfl⟩) _ rfl (fun _ => Nat.le_succ 1) _ rfl
    (fun _ => Nat.zero_le 1) _ (List.mem_filter.2 ⟨List.mem_cons_self, by decide +kernel⟩) (by decide +kernel) rfl
    (by decide) (by decide)
    (by
      rintro t ⟨j, rfl, hj⟩
      change (18 : Int) + 6 + _ ≤ 30 at hj
      have : j = 0 ∨ j = 1 := by omega
      rcases this with rfl | rfl
      · exact ⟨by decide +kernel, .inr (by decide +kernel)⟩
      · exact ⟨by decide +kernel, .inr (by decide +kernel)⟩)
  exact ⟨files, h1, h2⟩

end Demo

end PyG2P
