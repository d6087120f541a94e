import Verif.Props.Exe
import Verif.Props.Api

/-! # C37, C38, C92, C94: what is held after every failure, and remaining option values -/

namespace PyG2P

/-- C37, C94: what a controller holds when its `execute` ends, whether it failed or not: the reader iff the input
could be opened; the writer iff moreover the file information was read and the writer could be created; the second
reader iff there is a second file, the messages of the first were selected and the second could be opened; the data
set iff the output is netCDF and everything before its creation, and its creation, went well. -/
theorem held_after (p : Phases) :
    ((execCtrl p).1.reader = true ↔ p.openReader = none) ∧
    ((execCtrl p).1.writer = true ↔ p.openReader = none ∧ p.info = none ∧ p.newWriter = none) ∧
    ((execCtrl p).1.reader2 = true ↔ p.secondFile = true ∧ p.openReader = none ∧ p.info = none ∧ p.newWriter = none ∧
      p.select = none ∧ p.openSecond = none) ∧
    ((execCtrl p).1.dataset = true ↔ p.netcdf = true ∧ p.openReader = none ∧ p.info = none ∧ p.newWriter = none ∧
      p.select = none ∧ (p.secondFile = true → p.openSecond = none ∧ p.selectSecond = none) ∧ p.manipulate = none ∧
      p.createDataset = none) := by
  obtain ⟨nc, a, b, c, d, sf, e, f, g, h, i⟩ := p
  unfold execCtrl
  cases a with
  | some x => simp
  | none =>
  cases b with
  | some x => simp
  | none =>
  cases c with
  | some x => simp
  | none =>
  cases d with
  | some x => simp
  | none =>
  cases sf with
  | false => cases g <;> cases nc <;> cases h <;> simp
  | true =>
  cases e with
  | some x => simp
  | none => cases f <;> cases g <;> cases nc <;> cases h <;> simp

/-- A netCDF run with two files that fails in the manipulation. -/
example : (execCtrl ⟨true, none, none, none, none, true, none, none, some .valueError, none, none⟩).1 =
    ⟨true, true, true, false⟩ := rfl

/-- C37: after a netCDF run that fails before the data set was created the readers are closed, the writer is not. -/
theorem C37_netcdf_crash_held (p : Phases) (hd : Spec.DatasetMissing p) :
    (executeMain none p).1 = ⟨false, false, true, false⟩ := by
  unfold executeMain
  dsimp only
  unfold closeCtrl
  rw [if_pos ((execCtrl_dataset p).2 hd)]

example : Spec.DatasetMissing exPhases := ⟨rfl, rfl, rfl, rfl, Or.inl (fun h => by cases h)⟩

/-- C37: if the controller cannot be created at all, the handler closes `None`: `AttributeError`, whatever the
cause. -/
theorem C37_ctor (e : PyErr) (p : Phases) :
    executeMain (some e) p = (⟨false, false, false, false⟩, .error .attributeError) := rfl

/-- C38: without `-c`, `-W` and `-K` (with or without `-g`) the log shows an `AttributeError`. -/
theorem C38_no_commands_file (fs : Fs) (a : Args) (define : Py Params) (h1 : given a.download = false)
    (h2 : a.checkConf = false) (h3 : a.commandsFile = none) : contextInit fs a define = .error .attributeError := by
  unfold contextInit isConfigCommand
  rw [h1, h2, h3]
  rfl

/-- C38: so the context never asks for a configuration command. -/
theorem C38_never_config (fs : Fs) (a : Args) (define : Py Params) : contextInit fs a define ≠ .ok true := by
  unfold contextInit
  split_ifs
  · exact fun h => by cases h
  · exact fun h => by cases h
  · exact fun h => by cases h
  · split
    · exact fun h => by cases h
    · split
      · exact fun h => by cases h
      · split
        · exact fun h => by cases h
        · exact fun h => by cases h

/-- C92: `fmap` (and `ext`) of an API run: given as 1, as 1.0 or as `True` the JSON value counts (1 if there is
none), given otherwise, or not given, it is left as it is (`None` when not given, while a command uses 1). -/
theorem api_fmap (t : Api.Top) (j : Json) (tblDir geoDir : Str) :
    (t.fmap = .int 1 ∨ t.fmap = .num 1 ∨ t.fmap = .bool true →
      (j.fmap = .null → Api.optValue t j tblDir geoDir .fmap = .ok (.int 1)) ∧
      (∀ z : Int, z ≠ 0 → j.fmap = .int z → Api.optValue t j tblDir geoDir .fmap = .ok (.int z))) ∧
    (∀ v, t.fmap = v → v ≠ .int 1 → v ≠ .num 1 → v ≠ .bool true → Api.optValue t j tblDir geoDir .fmap = .ok v) := by
  have e : Api.optValue t j tblDir geoDir .fmap = .ok (Api.numOpt t.fmap j.fmap) := rfl
  rw [e]
  unfold Api.numOpt
  constructor
  · intro h
    have h1 : Api.isOne t.fmap = true := by
      rcases h with h | h | h <;> rw [h] <;> decide
    rw [if_pos h1]
    constructor
    · intro hj; rw [hj]; rfl
    · intro z hz hj
      rw [hj]
      unfold JVal.orElse JVal.truthy
      dsimp only
      rw [if_pos (decide_eq_true hz)]
  · intro v hv n1 n2 n3
    have h1 : Api.isOne v = false := by
      cases v with
      | null => rfl
      | bool b => cases b with
        | false => rfl
        | true => exact absurd rfl n3
      | int z => exact decide_eq_false fun h => n1 (by rw [h])
      | num q => exact decide_eq_false fun h => n2 (by rw [h])
      | str s => rfl
    rw [hv, h1]
    rfl

/-- C92: without an aggregation section neither the command nor the API aggregates, halves weights or forces a zero
map. -/
theorem api_no_aggregation (half : JVal) :
    Api.cliAggregation none half = .ok ⟨false, .null, .null, false, false⟩ ∧
    Api.apiAggregation none half = .ok ⟨false, .null, .null, false, false⟩ := ⟨rfl, rfl⟩

/-- C32: a fractional number in the commands file is cut to its integer part towards zero, and 0.0 counts as not
given. -/
theorem json_fraction (c : Cli) (j : Json) (tblDir geoDir : Str) (q : ℚ) (hc : c.start = none) (hj : j.tstart = .num q) :
    (q = 0 → optValue c j tblDir geoDir .tstart = .ok .null) ∧
    (q > 0 → ∃ z : Int, optValue c j tblDir geoDir .tstart = .ok (.int z) ∧ (z : ℚ) ≤ q ∧ q < z + 1) ∧
    (q < 0 → ∃ z : Int, optValue c j tblDir geoDir .tstart = .ok (.int z) ∧ (z : ℚ) - 1 < q ∧ q ≤ z) := by
  have e : optValue c j tblDir geoDir .tstart = intOpt c.start j.tstart := rfl
  rw [e, hc, hj]
  unfold intOpt
  dsimp only
  unfold JVal.truthy
  dsimp only
  refine ⟨?_, ?_, ?_⟩
  · intro h
    rw [h]
    rfl
  · intro h
    rw [if_pos (decide_eq_true (ne_of_gt h))]
    refine ⟨⌊q⌋, ?_, Int.floor_le q, Int.lt_floor_add_one q⟩
    unfold JVal.toInt
    dsimp only
    rw [if_pos (le_of_lt h)]
    rfl
  · intro h
    rw [if_pos (decide_eq_true (ne_of_lt h))]
    refine ⟨⌈q⌉, ?_, ?_, Int.le_ceil q⟩
    · unfold JVal.toInt
      dsimp only
      rw [if_neg (not_le.2 h)]
      rfl
    · have := Int.ceil_lt_add_one q
      linarith

end PyG2P
