import Verif.Props.NumberText

/-! # C32, C33: output folder, switches and numbers that are no numbers -/

namespace PyG2P

namespace Spec
instance (d : Str) : Decidable (∃ a, d = a ++ ['/']) :=
  decidable_of_iff (d.getLast? = some '/') ⟨fun h => by
    rw [List.getLast?_eq_some_iff] at h
    exact h, fun ⟨a, h⟩ => by rw [h]; simp⟩
/-- The folder as it is used: `./` and folders written with a final slash as given, else with a slash added. -/
def folder (d : Str) : Str :=
  if d = ['.', '/'] ∨ ∃ a, d = a ++ ['/'] then d else d ++ ['/']

end Spec

theorem outDir_eq (fs : Fs) (d : Str) : outDirOf fs d =
    if d = ['.', '/'] then .ok d
    else if fs.isDir (Spec.folder d) = true ∨ fs.canCreate (Spec.folder d) = true then .ok (Spec.folder d)
    else .error .appNoCode := by
  unfold outDirOf Spec.folder
  have e : "./".toList = ['.', '/'] := rfl
  rw [e]
  by_cases h : d = ['.', '/']
  · rw [if_pos h, if_pos h]
  · rw [if_neg h, if_neg h]
    dsimp only
    have hl : d.getLast? = some '/' ↔ ∃ a, d = a ++ ['/'] := List.getLast?_eq_some_iff
    by_cases hs : d.getLast? = some '/'
    · rw [if_pos hs, if_pos (Or.inr (hl.1 hs))]
      split_ifs <;> simp_all
    · have hn : ¬ (d = ['.', '/'] ∨ ∃ a, d = a ++ ['/']) := fun hh => hh.elim h fun hh => hs (hl.2 hh)
      rw [if_neg hs, if_neg hn]
      split_ifs <;> simp_all

theorem checked_parts (fs : Fs) (p : Params) (c : Checked) (h : checkParams fs p = .ok c) :
    outDirOf fs p.outDir = .ok c.outDir ∧ unitTimeOf p.unitTime = .ok c.unitTime := by
  unfold checkParams at h
  simp only [bind, Except.bind, pure, Except.pure, throw, throwThe, MonadExceptOf.throw] at h
  split at h
  · cases h
  · split at h
    · cases h
    · split at h
      · cases h
      · split at h
        · cases h
        · split at h
          · cases h
          · cases ho : outDirOf fs p.outDir with
            | error e => rw [ho] at h; cases h
            | ok d =>
              rw [ho] at h
              dsimp only at h
              cases hl : levelOf p.level with
              | error e => rw [hl] at h; cases h
              | ok l =>
                rw [hl] at h
                dsimp only at h
                cases hu : unitTimeOf p.unitTime with
                | error e => rw [hu] at h; cases h
                | ok u =>
                  rw [hu] at h
                  dsimp only at h
                  split at h
                  · cases h
                  · split at h
                    · cases h
                    · split at h
                      · cases h
                      · rw [← Except.ok.inj h]; exact ⟨rfl, rfl⟩

/-- C33: in a run that passes the checks the maps go to the folder given with `-o`, written with a final slash, which
exists or could be created (`./` is not looked at). -/
theorem out_dir (fs : Fs) (p : Params) (c : Checked) (h : checkParams fs p = .ok c) :
    c.outDir = Spec.folder p.outDir ∧
    (p.outDir ≠ ['.', '/'] → fs.isDir c.outDir = true ∨ fs.canCreate c.outDir = true) := by
  have key := (checked_parts fs p c h).1
  rw [outDir_eq] at key
  by_cases hd : p.outDir = ['.', '/']
  · rw [if_pos hd] at key
    have key := Except.ok.inj key
    rw [← key]
    refine ⟨?_, fun hh => absurd hd hh⟩
    unfold Spec.folder
    rw [if_pos (Or.inl hd)]
  · rw [if_neg hd] at key
    split at key
    · rename_i hc
      have key := Except.ok.inj key
      rw [← key]
      exact ⟨rfl, fun _ => hc⟩
    · cases key

/-- C33: with an empty folder name the maps go to the root folder. -/
theorem out_dir_empty (fs : Fs) (p : Params) (c : Checked) (h : checkParams fs p = .ok c) (h0 : p.outDir = []) :
    c.outDir = ['/'] := by
  rw [(out_dir fs p c h).1, h0]
  unfold Spec.folder
  rw [if_neg]
  · rfl
  · rintro (h | ⟨a, h⟩)
    · cases h
    · simp at h

/-- C32: `true` counts as the number 1 in a step option of the commands file, `false` and `null` as not given. -/
theorem option_true (c : Cli) (j : Json) (tblDir geoDir : Str) (hc : c.start = none) :
    (j.tstart = .bool true → optValue c j tblDir geoDir .tstart = .ok (.int 1)) ∧
    (j.tstart = .bool false → optValue c j tblDir geoDir .tstart = .ok .null) ∧
    (j.tstart = .null → optValue c j tblDir geoDir .tstart = .ok .null) := by
  have e : optValue c j tblDir geoDir .tstart = intOpt c.start j.tstart := rfl
  rw [e, hc]
  exact ⟨fun h => by rw [h]; rfl, fun h => by rw [h]; rfl, fun h => by rw [h]; rfl⟩

/-- C33: the unit time: 24 (as text) if not given; 1 and 0 for the switches; the whole part of a number. -/
theorem unit_time (fs : Fs) (p : Params) (c : Checked) (h : checkParams fs p = .ok c) :
    (p.unitTime = .null → c.unitTime = .str "24".toList) ∧
    (p.unitTime = .bool true → c.unitTime = .int 1) ∧ (p.unitTime = .bool false → c.unitTime = .int 0) ∧
    (∀ z, p.unitTime = .int z → c.unitTime = .int z) := by
  have key := (checked_parts fs p c h).2
  refine ⟨fun hu => ?_, fun hu => ?_, fun hu => ?_, fun z hu => ?_⟩
  all_goals
    rw [hu] at key
    exact (Except.ok.inj key).symm

/-- C32: for an accumulation, `@forceZeroArray` must be a text: a JSON switch or number ends in `AttributeError`; without
it, and for every other aggregation, it is off. -/
theorem force_zero (a : JAggr) :
    (a.type = .str "accumulation".toList → (∀ s, a.forceZero ≠ some (.str s)) → a.forceZero ≠ none →
      forceZero a = .error .attributeError) ∧
    (a.type = .str "accumulation".toList → a.forceZero = none → forceZero a = .ok false) ∧
    (a.type ≠ .str "accumulation".toList → forceZero a = .ok false) := by
  refine ⟨fun h1 h2 h3 => ?_, fun h1 h2 => ?_, fun h => ?_⟩
  · unfold forceZero
    rw [if_pos h1]
    cases hf : a.forceZero with
    | none => exact absurd hf h3
    | some v =>
      rw [Option.getD_some]
      cases v with
      | str s => exact absurd hf (h2 s)
      | null => rfl
      | bool b => rfl
      | int z => rfl
      | num q => rfl
  · unfold forceZero
    rw [if_pos h1, h2]
    decide +kernel
  · unfold forceZero
    rw [if_neg h]

example : Spec.folder "out".toList = "out/".toList ∧ Spec.folder "out/".toList = "out/".toList ∧
    Spec.folder "./".toList = "./".toList ∧ Spec.folder [] = "/".toList := by decide +kernel

end PyG2P
