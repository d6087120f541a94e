import Verif.Model.Config
import Verif.Lemmas.Py

/-! # C39, C42–C46, C81 — configuration files -/

namespace PyG2P

/-! ## C39: user entries override global entries -/

section C39
variable {V : Type}

/-- What is saved can be read back, entry by entry. -/
theorem dumpFile_obj (le : Str → Str → Bool) {d : Dict Str V} (h : d ≠ []) :
    ∃ d', Conf.dumpFile le d = .obj d' ∧ d'.Perm d := by
  refine ⟨_, by unfold Conf.dumpFile; rw [if_neg h], List.mergeSort_perm _ _⟩

/-- **C39.** Loading succeeds exactly when there is no user file or it holds a JSON object; then a key has
the user's value if the user file (the template, when there is no file) defines it, and the global value
otherwise. An existing file is left as it is, an absent one is created with the entries of the template. -/
theorem conf_load (le : Str → Str → Bool) (global template : Dict Str V) (disk : Option (JFile V))
    (ht : template ≠ []) (htn : (Dict.keys template).Nodup)
    (hd : ∀ d, disk = some (.obj d) → (Dict.keys d).Nodup) :
    (∀ u, (disk = none ∧ u = template) ∨ disk = some (.obj u) →
      ∃ c, Conf.init le global template disk = .ok c ∧
        (∀ k, Dict.get? c.vars k = match Dict.get? u k with
          | some v => some v
          | none => Dict.get? global k) ∧
        c.user = u ∧
        (disk = some (.obj u) → c.disk = disk) ∧
        (disk = none → ∃ d, c.disk = some (.obj d) ∧ d.Perm template)) ∧
    ((∃ s, disk = some (.text s)) → Conf.init le global template disk = .error .valueError) ∧
    (disk = some .invalid → Conf.init le global template disk = .error (.app 8200)) := by
  have hv : ∀ u : Dict Str V, (Dict.keys u).Nodup → ∀ k,
      Dict.get? (Dict.update global u) k = match Dict.get? u k with
        | some v => some v
        | none => Dict.get? global k := by
    intro u hu k
    rw [Dict.get?_update, Dict.lastPair_eq_get? hu]
    cases Dict.get? u k <;> rfl
  refine ⟨?_, ?_, ?_⟩
  · rintro u (⟨hn, rfl⟩ | hs)
    · subst hn
      refine ⟨_, rfl, hv u htn, rfl, (fun h => by cases h), fun _ => ?_⟩
      obtain ⟨d', h1, h2⟩ := dumpFile_obj le ht
      exact ⟨d', by rw [← h1], h2⟩
    · subst hs
      exact ⟨_, rfl, hv u (hd u rfl), rfl, fun _ => rfl, (fun h => by cases h)⟩
  · rintro ⟨s, rfl⟩
    rfl
  · rintro rfl
    rfl

/-- Non-vacuity: a user file overriding one of two global entries. -/
example : ∃ c, Conf.init (fun _ _ => true) [("a".toList, 1), ("b".toList, 2)] [("description".toList, 0)]
      (some (.obj [("a".toList, 7)])) = .ok c ∧
    Dict.get? c.vars "a".toList = some 7 ∧ Dict.get? c.vars "b".toList = some 2 :=
  ⟨_, rfl, by decide, by decide⟩

end C39

/-! ## C44: saving and loading -/

/-- **C44** (the part that holds). Saving user entries, at least one, and loading the file again gives the
same entries. What is missing: no entries at all (`conf_empty_lost`). -/
theorem conf_roundtrip_partial {V : Type} (le : Str → Str → Bool) (global template : Dict Str V) (c : Conf V)
    (hne : c.user ≠ []) (hn : (Dict.keys c.user).Nodup) :
    ∃ c', Conf.init le global template (c.dump le).disk = .ok c' ∧
      ∀ k, Dict.get? c'.user k = Dict.get? c.user k := by
  obtain ⟨d', h1, h2⟩ := dumpFile_obj le hne
  refine ⟨⟨Dict.update global d', d', some (.obj d')⟩, ?_, fun k => ?_⟩
  · unfold Conf.dump
    dsimp only
    rw [h1]
    rfl
  · have hn' : (Dict.keys d').Nodup := (h2.map _).nodup_iff.2 hn
    exact Dict.get?_perm h2 hn' k

/-- Non-vacuity of C44, with keys that sorting moves. -/
example : ∃ c', Conf.init (fun _ _ => false) ([] : Dict Str Nat) [] (Conf.dump (fun _ _ => false)
      ⟨[], [("b".toList, 1), ("a".toList, 2)], none⟩).disk = .ok c' ∧
    ∀ k, Dict.get? c'.user k = Dict.get? [("b".toList, 1), ("a".toList, 2)] k :=
  conf_roundtrip_partial _ _ _ ⟨[], [("b".toList, 1), ("a".toList, 2)], none⟩ (by simp) (by decide)

/-- C44 fails without entries: the file then holds a text, and the next start of the program fails. -/
theorem conf_empty_lost {V : Type} (le : Str → Str → Bool) (global template : Dict Str V) (c : Conf V)
    (h : c.user = []) : Conf.init le global template (c.dump le).disk = .error .valueError := by
  unfold Conf.dump Conf.dumpFile
  dsimp only
  rw [if_pos h]
  rfl

/-! ## C45: parameters and conversions -/

/-- The conversions of a parameter, in order. -/
def Spec.entries : Conversions → List ConvEntry
  | .none => []
  | .one c => [c]
  | .many cs => cs

/-- **C45.** Looking up a conversion returns the first entry of the parameter with the requested identifier,
and error 1200 exactly when there is none; looking up a parameter returns its entry, and error 1100 exactly
when there is none (or an empty one). -/
theorem parameter_lookup :
    (∀ (c : Conversions) (id : Str),
      (∀ x, getConversion c id = .ok x ↔
        ∃ pre post, Spec.entries c = pre ++ x :: post ∧ x.id = id ∧ ∀ y ∈ pre, y.id ≠ id) ∧
      (∀ e, getConversion c id = .error e ↔ e = .app 1200 ∧ ∀ x ∈ Spec.entries c, x.id ≠ id)) ∧
    (∀ (V : Type) (truthy : V → Bool) (vars : Dict Str V) (name : Str),
      (∀ p, getParameter truthy vars name = .ok p ↔ Dict.get? vars name = some p ∧ truthy p = true) ∧
      (∀ e, getParameter truthy vars name = .error e ↔
        e = .app 1100 ∧ ∀ p, Dict.get? vars name = some p → truthy p = false)) := by
  have many : ∀ (cs : List ConvEntry) (id : Str),
      (∀ x, cs.find? (fun x => decide (x.id = id)) = some x ↔
        ∃ pre post, cs = pre ++ x :: post ∧ x.id = id ∧ ∀ y ∈ pre, y.id ≠ id) ∧
      (cs.find? (fun x => decide (x.id = id)) = none ↔ ∀ x ∈ cs, x.id ≠ id) := by
    intro cs id
    constructor
    · intro x
      rw [List.find?_eq_some_iff_append]
      constructor
      · rintro ⟨h1, pre, post, h2, h3⟩
        exact ⟨pre, post, h2, by simpa using h1, fun y hy => by simpa using h3 y hy⟩
      · rintro ⟨pre, post, h2, h1, h3⟩
        exact ⟨by simpa using h1, pre, post, h2, fun y hy => by simpa using h3 y hy⟩
    · rw [List.find?_eq_none]
      constructor
      · intro h x hx
        simpa using h x hx
      · intro h x hx
        simpa using h x hx
  constructor
  · intro c id
    have hgen : getConversion c id = match (Spec.entries c).find? (fun x => decide (x.id = id)) with
        | some x => .ok x
        | none => .error (.app 1200) := by
      cases c with
      | none => rfl
      | one x =>
        unfold getConversion Spec.entries
        dsimp only
        by_cases h : x.id = id
        · rw [if_pos h, List.find?_cons, decide_eq_true h]
        · rw [if_neg h, List.find?_cons, decide_eq_false h, List.find?_nil]
      | many cs => rfl
    obtain ⟨m1, m2⟩ := many (Spec.entries c) id
    constructor
    · intro x
      rw [← m1, hgen]
      cases (Spec.entries c).find? (fun x => decide (x.id = id)) with
      | none => simp
      | some y => simp
    · intro e
      rw [← m2, hgen]
      cases (Spec.entries c).find? (fun x => decide (x.id = id)) with
      | none =>
        dsimp only
        constructor
        · intro h
          injection h with h
          exact ⟨h.symm, rfl⟩
        · rintro ⟨rfl, -⟩
          rfl
      | some y => simp
  · intro V truthy vars name
    unfold getParameter
    cases h : Dict.get? vars name with
    | none =>
      dsimp only
      constructor
      · intro p
        constructor
        · intro h; cases h
        · rintro ⟨h, -⟩; cases h
      · intro e
        constructor
        · intro h
          injection h with h
          exact ⟨h.symm, (fun p hp => by cases hp)⟩
        · rintro ⟨rfl, -⟩
          rfl
    | some q =>
      dsimp only
      cases ht : truthy q with
      | true =>
        constructor
        · intro p
          rw [if_pos rfl]
          constructor
          · intro e
            injection e with e
            subst e
            exact ⟨rfl, ht⟩
          · rintro ⟨e, -⟩
            injection e with e
            rw [e]
        · intro e
          rw [if_pos rfl]
          constructor
          · intro h; cases h
          · rintro ⟨-, h⟩
            have := h q rfl
            rw [ht] at this
            cases this
      | false =>
        rw [if_neg (by decide)]
        constructor
        · intro p
          constructor
          · intro h; cases h
          · rintro ⟨e, h⟩
            injection e with e
            subst e
            rw [ht] at h; cases h
        · intro e
          constructor
          · intro h
            injection h with h
            exact ⟨h.symm, fun p hp => by injection hp with hp; rw [← hp]; exact ht⟩
          · rintro ⟨rfl, -⟩
            rfl

/-- Non-vacuity: a list with a repeated identifier. -/
example : getConversion (.many [⟨['a'], ['1'], [], .null⟩, ⟨['b'], ['2'], [], .null⟩, ⟨['b'], ['3'], [], .null⟩]) ['b'] =
    .ok ⟨['b'], ['2'], [], .null⟩ := by decide

/-! ## C42: which geopotential file is used -/

/-- The candidate path in a folder, when a folder is set. -/
def Spec.Candidate (folder : Option Str) (name p : Str) : Prop :=
  ∃ d, folder = some d ∧ d ≠ [] ∧
    p = if d.getLast? = some '/' then d ++ name else d ++ '/' :: name

theorem joinPath_of_ne {d : Str} (h : d ≠ []) (name : Str) :
    joinPath d name = if d.getLast? = some '/' then d ++ name else d ++ '/' :: name := by
  unfold joinPath
  rw [if_neg h]

theorem find_folders (isFile : Str → Bool) (name : Str) (folders : List (Option Str)) :
    (∀ p, (folders.filterMap (folderPath name)).find? isFile = some p ↔
      ∃ pre f post, folders = pre ++ f :: post ∧ Spec.Candidate f name p ∧ isFile p = true ∧
        ∀ g ∈ pre, ∀ q, Spec.Candidate g name q → isFile q = false) ∧
    ((folders.filterMap (folderPath name)).find? isFile = none ↔
      ∀ f ∈ folders, ∀ q, Spec.Candidate f name q → isFile q = false) := by
  induction folders with
  | nil =>
    constructor
    · intro p
      constructor
      · intro h; cases h
      · rintro ⟨pre, f, post, h, -⟩
        simp at h
    · constructor
      · intro _ f hf; cases hf
      · intro _; rfl
  | cons f folders ih =>
    obtain ⟨ih1, ih2⟩ := ih
    have skip : (∀ q, ¬ Spec.Candidate f name q) ∨ ∃ q, Spec.Candidate f name q ∧
        ∀ q', Spec.Candidate f name q' → q' = q := by
      by_cases h : ∃ q, Spec.Candidate f name q
      · obtain ⟨q, d, hd, hne, hq⟩ := h
        refine Or.inr ⟨q, ⟨d, hd, hne, hq⟩, ?_⟩
        rintro q' ⟨d', hd', -, hq'⟩
        rw [hd] at hd'
        injection hd' with hd'
        subst hd'
        rw [hq, hq']
      · exact Or.inl fun q hq => h ⟨q, hq⟩
    rcases skip with hno | ⟨q, hq, huniq⟩
    · have e : folderPath name f = none := by
        cases f with
        | none => rfl
        | some d =>
          unfold folderPath
          dsimp only
          by_cases hd : d = []
          · rw [if_pos hd]
          · exact absurd ⟨d, rfl, hd, rfl⟩ (hno _)
      rw [List.filterMap_cons_none e]
      constructor
      · intro p
        rw [ih1]
        constructor
        · rintro ⟨pre, g, post, h1, h2, h3, h4⟩
          refine ⟨f :: pre, g, post, by rw [h1]; rfl, h2, h3, ?_⟩
          intro g' hg' q hq
          rcases List.mem_cons.1 hg' with h | h
          · subst h; exact absurd hq (hno q)
          · exact h4 g' h q hq
        · rintro ⟨pre, g, post, h1, h2, h3, h4⟩
          cases pre with
          | nil =>
            injection h1 with h1 _
            subst h1
            exact absurd h2 (hno p)
          | cons x pre =>
            injection h1 with _ h1
            exact ⟨pre, g, post, h1, h2, h3, fun g' hg' => h4 g' (by simp [hg'])⟩
      · rw [ih2]
        constructor
        · intro h g hg q hq
          rcases List.mem_cons.1 hg with h' | h'
          · subst h'; exact absurd hq (hno q)
          · exact h g h' q hq
        · exact fun h g hg => h g (by simp [hg])
    · obtain ⟨d, hd, hne, hqe⟩ := hq
      have e : folderPath name f = some q := by
        subst hd
        unfold folderPath
        dsimp only
        rw [if_neg hne, joinPath_of_ne hne, hqe]
      rw [List.filterMap_cons_some e, List.find?_cons]
      have hq : Spec.Candidate f name q := ⟨d, hd, hne, hqe⟩
      cases hf : isFile q with
      | true =>
        dsimp only
        constructor
        · intro p
          constructor
          · intro h
            injection h with h
            subst h
            exact ⟨[], f, folders, rfl, hq, hf, fun g hg => by cases hg⟩
          · rintro ⟨pre, g, post, h1, h2, h3, h4⟩
            cases pre with
            | nil =>
              injection h1 with h1 _
              subst h1
              rw [huniq p h2]
            | cons x pre =>
              injection h1 with h1 _
              have := h4 x (by simp) q (by rw [← h1]; exact hq)
              rw [hf] at this
              cases this
        · constructor
          · intro h; cases h
          · intro h
            have := h f (by simp) q hq
            rw [hf] at this
            cases this
      | false =>
        dsimp only
        constructor
        · intro p
          rw [ih1]
          constructor
          · rintro ⟨pre, g, post, h1, h2, h3, h4⟩
            refine ⟨f :: pre, g, post, by rw [h1]; rfl, h2, h3, ?_⟩
            intro g' hg' q' hq'
            rcases List.mem_cons.1 hg' with h | h
            · subst h; rw [huniq q' hq']; exact hf
            · exact h4 g' h q' hq'
          · rintro ⟨pre, g, post, h1, h2, h3, h4⟩
            cases pre with
            | nil =>
              injection h1 with h1 _
              subst h1
              rw [huniq p h2, hf] at h3
              cases h3
            | cons x pre =>
              injection h1 with _ h1
              exact ⟨pre, g, post, h1, h2, h3, fun g' hg' => h4 g' (by simp [hg'])⟩
        · rw [ih2]
          constructor
          · intro h g hg q' hq'
            rcases List.mem_cons.1 hg with h' | h'
            · subst h'; rw [huniq q' hq']; exact hf
            · exact h g h' q' hq'
          · exact fun h g hg => h g (by simp [hg])

/-- **C42.** A file given with the input is used as it is. Otherwise the geopotential of a grid is the file
registered for its identifier, in the first of the `-G` folder, the user folder and the global folder that
contains it; error 4000 exactly when no file name is registered, 4200 exactly when one is registered but is
in none of the folders. -/
theorem geopotential_lookup (isFile : Str → Bool) (vars : Dict Str Str) (inputGeo gDir userDir globalDir :
    Option Str) (id : Str) :
    (∀ p, inputGeo = some p → p ≠ [] →
      geoFile isFile vars inputGeo [gDir, userDir, globalDir] id = .ok p) ∧
    (inputGeo = none →
      (∀ p, geoFile isFile vars inputGeo [gDir, userDir, globalDir] id = .ok p ↔
        ∃ name, Dict.get? vars id = some name ∧ name ≠ [] ∧
          ∃ pre f post, [gDir, userDir, globalDir] = pre ++ f :: post ∧ Spec.Candidate f name p ∧
            isFile p = true ∧ ∀ g ∈ pre, ∀ q, Spec.Candidate g name q → isFile q = false) ∧
      (∀ e, geoFile isFile vars inputGeo [gDir, userDir, globalDir] id = .error e ↔
        (e = .app 4000 ∧ (Dict.get? vars id = none ∨ Dict.get? vars id = some [])) ∨
        (e = .app 4200 ∧ ∃ name, Dict.get? vars id = some name ∧ name ≠ [] ∧
          ∀ f ∈ [gDir, userDir, globalDir], ∀ q, Spec.Candidate f name q → isFile q = false))) := by
  constructor
  · rintro p rfl hp
    unfold geoFile
    rw [if_pos (by unfold given; simpa using hp)]
    rfl
  · rintro rfl
    have e0 : geoFile isFile vars none [gDir, userDir, globalDir] id =
        geoFilepath isFile vars [gDir, userDir, globalDir] id := by
      unfold geoFile
      rw [if_neg (by decide)]
    rw [e0]
    unfold geoFilepath
    cases hg : Dict.get? vars id with
    | none =>
      dsimp only
      constructor
      · intro p
        constructor
        · intro h; cases h
        · rintro ⟨n, h, -⟩; cases h
      · intro e
        constructor
        · intro h
          injection h with h
          exact Or.inl ⟨h.symm, Or.inl rfl⟩
        · rintro (⟨h, -⟩ | ⟨-, n, h, -⟩)
          · rw [h]; rfl
          · cases h
    | some name =>
      dsimp only
      by_cases hn : name = []
      · subst hn
        rw [if_pos rfl]
        constructor
        · intro p
          constructor
          · intro h; cases h
          · rintro ⟨n, h, hne, -⟩
            injection h with h
            exact absurd h.symm hne
        · intro e
          constructor
          · intro h
            injection h with h
            exact Or.inl ⟨h.symm, Or.inr rfl⟩
          · rintro (⟨h, -⟩ | ⟨-, n, h, hne, -⟩)
            · rw [h]; rfl
            · injection h with h
              exact absurd h.symm hne
      · rw [if_neg hn]
        obtain ⟨f1, f2⟩ := find_folders isFile name [gDir, userDir, globalDir]
        generalize hL : List.filterMap (folderPath name) [gDir, userDir, globalDir] = L at f1 f2 ⊢
        cases hf : L.find? isFile with
        | none =>
          dsimp only
          have h2 := f2.1 hf
          constructor
          · intro p
            constructor
            · intro h; cases h
            · rintro ⟨n, h, -, hx⟩
              injection h with h
              subst h
              have := (f1 p).2 hx
              rw [hf] at this
              cases this
          · intro e
            constructor
            · intro h
              injection h with h
              exact Or.inr ⟨h.symm, name, rfl, hn, h2⟩
            · rintro (⟨-, h | h⟩ | ⟨h, -⟩)
              · cases h
              · injection h with h; exact absurd h hn
              · rw [h]; rfl
        | some p0 =>
          dsimp only
          constructor
          · intro p
            constructor
            · intro h
              injection h with h
              subst h
              exact ⟨name, rfl, hn, (f1 p0).1 hf⟩
            · rintro ⟨n, h, -, hx⟩
              injection h with h
              subst h
              have := (f1 p).2 hx
              rw [hf] at this
              injection this with this
              rw [this]
          · intro e
            constructor
            · intro h; cases h
            · rintro (⟨-, h | h⟩ | ⟨-, n, h, -, hx⟩)
              · cases h
              · injection h with h; exact absurd h hn
              · injection h with h
                subst h
                have := f2.2 hx
                rw [hf] at this
                cases this

/-- Non-vacuity: no `-G` folder, the file only in the global folder. -/
example : geoFile (fun p => decide (p = "/g/z.grb".toList)) [("id".toList, "z.grb".toList)] none
    [none, some "/u".toList, some "/g/".toList] "id".toList = .ok "/g/z.grb".toList := by decide

end PyG2P
