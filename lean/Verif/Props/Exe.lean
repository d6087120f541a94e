import Verif.Model.Exe
import Verif.Props.Context

/-! # Program entry: C37, C38 -/

namespace PyG2P

/-! ## C37 -/

namespace Spec
/-- The outcome of the first phase that fails (the second-file and data-set phases count only when they
are run). -/
def firstFailure (p : Phases) : Option PyErr :=
  ([p.openReader, p.info, p.newWriter, p.select] ++ (if p.secondFile then [p.openSecond, p.selectSecond] else [])
    ++ [p.manipulate] ++ (if p.netcdf then [p.createDataset] else []) ++ [p.write]).findSome? id

/-- The writer was created but the run failed before its netCDF data set was. -/
def DatasetMissing (p : Phases) : Prop :=
  p.netcdf = true ∧ p.openReader = none ∧ p.info = none ∧ p.newWriter = none ∧
    (p.select ≠ none ∨ (p.secondFile = true ∧ (p.openSecond ≠ none ∨ p.selectSecond ≠ none)) ∨
      p.manipulate ≠ none ∨ p.createDataset ≠ none)

/-- An application error: an `ApplicationException`, with or without a code; all others are plain Python errors. -/
def AppError (e : PyErr) : Prop := e = .appNoCode ∨ ∃ c, e = .app c
end Spec

theorem isApp_iff (e : PyErr) : e.isApp = true ↔ Spec.AppError e := by
  cases e <;> simp [PyErr.isApp, Spec.AppError]

theorem isApp_false_iff (e : PyErr) : e.isApp = false ↔ ¬ Spec.AppError e := by
  rw [← isApp_iff]
  simp

theorem execCtrl_outcome (p : Phases) : (execCtrl p).2 = Spec.firstFailure p := by
  obtain ⟨nc, a, b, c, d, sf, e, f, g, h, i⟩ := p
  unfold execCtrl Spec.firstFailure
  cases a with
  | some x => rfl
  | none =>
  cases b with
  | some x => rfl
  | none =>
  cases c with
  | some x => rfl
  | none =>
  cases d with
  | some x => rfl
  | none =>
  cases sf with
  | false => cases g <;> cases nc <;> cases h <;> cases i <;> rfl
  | true =>
  cases e with
  | some x => rfl
  | none => cases f <;> cases g <;> cases nc <;> cases h <;> cases i <;> rfl

theorem execCtrl_dataset (p : Phases) :
    ((execCtrl p).1.writer && p.netcdf && !(execCtrl p).1.dataset) = true ↔ Spec.DatasetMissing p := by
  obtain ⟨nc, a, b, c, d, sf, e, f, g, h, i⟩ := p
  unfold execCtrl Spec.DatasetMissing
  cases a with
  | some x => simp
  | none =>
  cases b with
  | some x => simp
  | none =>
  cases c with
  | some x => simp
  | none =>
  cases d with
  | some x => simp
  | none =>
  cases sf with
  | false => cases g <;> cases nc <;> cases h <;> simp
  | true =>
  cases e with
  | some x => simp
  | none => cases f <;> cases g <;> cases nc <;> cases h <;> simp

/-- C37: unless a netCDF run fails between the creation of the writer and that of its data set, the status
is 0 iff the run completed or found no messages, 1 for every other application error, and readers and
writer are closed; an error that is not an application error leaves the program as it is. -/
theorem C37_status_partial (p : Phases) (hd : ¬ Spec.DatasetMissing p) :
    (executeMain none p).1 = ⟨false, false, false, false⟩ ∧
    ((executeMain none p).2 = .ok 0 ↔ Spec.firstFailure p = none ∨ Spec.firstFailure p = some (.app 3000)) ∧
    ((executeMain none p).2 = .ok 1 ↔ ∃ e, Spec.firstFailure p = some e ∧ Spec.AppError e ∧ e ≠ .app 3000) ∧
    (∀ e, (executeMain none p).2 = .error e ↔ Spec.firstFailure p = some e ∧ ¬ Spec.AppError e) := by
  simp only [← isApp_iff, Bool.not_eq_true]
  have hc : closeCtrl p.netcdf (execCtrl p).1 = (⟨false, false, false, false⟩, none) := by
    unfold closeCtrl
    rw [if_neg (fun h => hd ((execCtrl_dataset p).1 h))]
  unfold executeMain
  rw [← execCtrl_outcome]
  dsimp only
  rw [hc]
  dsimp only
  cases ho : (execCtrl p).2 with
  | none =>
    dsimp only
    refine ⟨rfl, by simp, ?_, ?_⟩
    · constructor
      · intro h; cases h
      · rintro ⟨e, h, -⟩; cases h
    · intro e
      constructor
      · intro h; cases h
      · rintro ⟨h, -⟩; cases h
  | some e =>
    dsimp only
    by_cases ha : e.isApp = true
    · rw [if_pos ha]
      refine ⟨rfl, ?_, ?_, ?_⟩
      · by_cases h3 : e = .app 3000
        · simp [h3]
        · simp [h3]
      · by_cases h3 : e = .app 3000
        · simp [h3]
        · simp [h3, ha]
      · intro e'
        constructor
        · intro h; cases h
        · rintro ⟨h, h'⟩; cases h; rw [ha] at h'; cases h'
    · rw [if_neg ha]
      refine ⟨rfl, ?_, ?_, ?_⟩
      · constructor
        · intro h; cases h
        · rintro (h | h)
          · cases h
          · cases h; exact absurd rfl ha
      · constructor
        · intro h; cases h
        · rintro ⟨e', h, h', -⟩; cases h; exact absurd h' ha
      · intro e'
        constructor
        · intro h; cases h; exact ⟨rfl, by simpa using ha⟩
        · rintro ⟨h, -⟩; cases h; rfl

/-- C37: the readers are closed in every case. -/
theorem C37_readers_closed (ctor : Option PyErr) (p : Phases) :
    (executeMain ctor p).1.reader = false ∧ (executeMain ctor p).1.reader2 = false := by
  unfold executeMain
  cases ctor with
  | some e => exact ⟨rfl, rfl⟩
  | none =>
    dsimp only
    unfold closeCtrl
    by_cases h : ((execCtrl p).1.writer && p.netcdf && !(execCtrl p).1.dataset) = true
    · rw [if_pos h]; exact ⟨rfl, rfl⟩
    · rw [if_neg h]
      dsimp only
      cases (execCtrl p).2 with
      | none => exact ⟨rfl, rfl⟩
      | some e => dsimp only; split_ifs <;> exact ⟨rfl, rfl⟩

/-- C37 is violated in every netCDF run that fails after the creation of the writer and before that of the
data set: whatever the failure, `AttributeError` leaves the program. -/
theorem C37_netcdf_crash (p : Phases) (hd : Spec.DatasetMissing p) :
    (executeMain none p).2 = .error .attributeError := by
  unfold executeMain
  dsimp only
  unfold closeCtrl
  rw [if_pos ((execCtrl_dataset p).2 hd)]

def exPhases : Phases := ⟨true, none, none, none, some (.app 3000), false, none, none, none, none, none⟩

/-- In particular when no message is selected, which should give status 0. -/
theorem C37_violated : Spec.firstFailure exPhases = some (.app 3000) ∧
    (executeMain none exPhases).2 = .error .attributeError := by decide +kernel

example : ¬ Spec.DatasetMissing { exPhases with netcdf := false } ∧
    (executeMain none { exPhases with netcdf := false }).2 = .ok 0 :=
  ⟨(fun h => by cases h.1), by decide +kernel⟩

/-- The arguments describe a run and its parameters were read and passed all checks. -/
def Spec.Accepted (fs : Fs) (a : Args) (define : Py Params) : Prop :=
  given a.download = false ∧ a.checkConf = false ∧ a.commandsFile ≠ none ∧
    ∃ q u, define = .ok q ∧ checkParams fs q = .ok u

/-- C37 for the whole program: the status is 0 iff the arguments were accepted and the run completed or found
no messages; when the arguments are refused, whatever the error, it is 1. Missing, as in
`C37_status_partial`: netCDF runs that fail before the data set is created. -/
theorem C37_program_partial (fs : Fs) (a : Args) (define : Py Params) (config : Option PyErr) (p : Phases)
    (hd : ¬ Spec.DatasetMissing p) :
    ((exe fs a define config none p).2.2 = .ok 0 ↔ Spec.Accepted fs a define ∧
      (Spec.firstFailure p = none ∨ Spec.firstFailure p = some (.app 3000))) ∧
    ((exe fs a define config none p).2.2 = .ok 1 ↔ ¬ Spec.Accepted fs a define ∨
      ∃ e, Spec.firstFailure p = some e ∧ Spec.AppError e ∧ e ≠ .app 3000) ∧
    (exe fs a define config none p).1 = ⟨false, false, false, false⟩ := by
  have key : (Spec.Accepted fs a define ∧ contextInit fs a define = .ok false) ∨
      (¬ Spec.Accepted fs a define ∧ ∃ e, contextInit fs a define = .error e) := by
    unfold Spec.Accepted contextInit isConfigCommand
    cases h1 : given a.download with
    | true =>
      refine Or.inr ⟨fun h => (by cases h.1), ?_⟩
      rw [if_pos (by rfl)]
      split_ifs <;> exact ⟨_, rfl⟩
    | false =>
      cases h2 : a.checkConf with
      | true =>
        refine Or.inr ⟨fun h => (by cases h.2.1), ?_⟩
        rw [if_pos (by rfl)]
        split_ifs <;> exact ⟨_, rfl⟩
      | false =>
        rw [if_neg (by decide)]
        cases h3 : a.commandsFile with
        | none => exact Or.inr ⟨fun h => h.2.2.1 rfl, _, rfl⟩
        | some f =>
          cases h4 : define with
          | error e =>
            refine Or.inr ⟨?_, _, rfl⟩
            rintro ⟨-, -, -, q, u, h, -⟩
            cases h
          | ok q =>
            dsimp only
            cases h5 : checkParams fs q with
            | error e =>
              refine Or.inr ⟨?_, _, rfl⟩
              rintro ⟨-, -, -, q', u, h, h'⟩
              injection h with h
              subst h
              rw [h5] at h'
              cases h'
            | ok u => exact Or.inl ⟨⟨rfl, rfl, (fun h => by cases h), q, u, rfl, h5⟩, rfl⟩
  obtain ⟨k1, k2, k3, -⟩ := C37_status_partial p hd
  unfold exe
  rcases key with ⟨ha, hk⟩ | ⟨ha, e, hk⟩
  · rw [hk]
    dsimp only
    exact ⟨⟨fun h => ⟨ha, k2.1 h⟩, fun h => k2.2 h.2⟩,
      ⟨fun h => Or.inr (k3.1 h), fun h => k3.2 (h.resolve_left (not_not_intro ha))⟩, k1⟩
  · rw [hk]
    dsimp only
    refine ⟨⟨fun h => ?_, fun h => absurd h.1 ha⟩, ⟨fun _ => Or.inl ha, fun _ => rfl⟩, rfl⟩
    exact absurd (Except.ok.inj h) (by decide)

/-! ## C38 -/

/-- C38: what the log shows for `-W` and `-K`: without an input file error 1001, with one that does not exist 1000,
otherwise a `KeyError`. -/
theorem C38_config_error (fs : Fs) (a : Args) (define : Py Params) (h : given a.download = true ∨ a.checkConf = true) :
    (given a.inputFile = false → contextInit fs a define = .error (.app 1001)) ∧
    (∀ f, a.inputFile = some f → f ≠ [] → fs.isFile f = false → contextInit fs a define = .error (.app 1000)) ∧
    (∀ f, a.inputFile = some f → f ≠ [] → fs.isFile f = true → contextInit fs a define = .error .keyError) := by
  have hc : isConfigCommand a = true := by
    unfold isConfigCommand
    rcases h with h | h <;> rw [h] <;> simp
  unfold contextInit
  rw [if_pos hc]
  refine ⟨?_, ?_, ?_⟩
  · intro h
    rw [if_pos h]
  · intro f hf h0 h1
    have g : given a.inputFile = true := by rw [hf]; cases f with
      | nil => exact absurd rfl h0
      | cons c f => rfl
    rw [if_neg (by rw [g]; decide), if_pos (by rw [hf]; exact h1)]
  · intro f hf h0 h1
    have g : given a.inputFile = true := by rw [hf]; cases f with
      | nil => exact absurd rfl h0
      | cons c f => rfl
    rw [if_neg (by rw [g]; decide), if_neg (by rw [hf]; change ¬ fs.isFile f = false; rw [h1]; decide)]

/-- C38 is violated by every `-W` and `-K` command: the parameters of a run are checked although there are
none, the status is 1 and no configuration command is run. -/
theorem C38_download_and_check_never_run (fs : Fs) (a : Args) (define : Py Params) (config ctor : Option PyErr)
    (p : Phases) (h : given a.download = true ∨ a.checkConf = true) :
    exe fs a define config ctor p = (⟨false, false, false, false⟩, false, .ok 1) := by
  have hc : isConfigCommand a = true := by
    unfold isConfigCommand
    rcases h with h | h <;> simp [h]
  unfold exe contextInit
  rw [if_pos hc]
  split_ifs <;> rfl

/-- C38 is violated by every `-g` command: without `-c` the status is 1; no configuration command is ever
run, whatever the arguments. -/
theorem C38_no_config_command (fs : Fs) (a : Args) (define : Py Params) (config ctor : Option PyErr)
    (p : Phases) : (exe fs a define config ctor p).2.1 = false ∧
      (a.commandsFile = none → (exe fs a define config ctor p).2.2 = .ok 1) := by
  unfold exe contextInit
  by_cases hc : isConfigCommand a = true
  · rw [if_pos hc]
    split_ifs <;> exact ⟨rfl, fun _ => rfl⟩
  · rw [if_neg hc]
    cases a.commandsFile with
    | none => exact ⟨rfl, fun _ => rfl⟩
    | some f =>
      dsimp only
      cases define with
      | error e => exact ⟨rfl, fun h => by cases h⟩
      | ok q =>
        dsimp only
        cases checkParams fs q with
        | error e => exact ⟨rfl, fun h => by cases h⟩
        | ok r => exact ⟨rfl, fun h => by cases h⟩

example : given (some "geopotentials".toList) = true := by decide

end PyG2P
