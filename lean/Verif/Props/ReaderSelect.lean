import Verif.Lemmas.Reader

/-! # Message selection: C26, C27 -/

namespace PyG2P
open PyG2P.Reader
variable {α : Type}

/-! ## Specification -/

namespace Spec
/-- A message satisfies a selection: every requested key is defined in the message and its value meets
the condition. -/
def Matches (m : GMsg α) (kw : Kwargs) : Prop :=
  ∀ k c, (k, c) ∈ kw → ∃ x, m.get? k = some x ∧ c.holds x = true

/-- Position `i` of the file holds a message that satisfies the selection. -/
def MatchesAt (file : List (GMsg α)) (kw : Kwargs) (i : Nat) : Prop :=
  ∃ m, file[i]? = some m ∧ Matches m kw

/-- `ps` lists exactly the positions of the messages satisfying the selection, each once, those of one
short name in file order. -/
structure SelectsExactly (file : List (GMsg α)) (kw : Kwargs) (ps : List Nat) : Prop where
  exact_ : ∀ i, i ∈ ps ↔ MatchesAt file kw i
  once : ps.Nodup
  order : ps.Pairwise fun i j => ∀ m m', file[i]? = some m → file[j]? = some m' →
    m.shortName = m'.shortName → i < j

/-- The relaxed selection of the fallback: start step at least 0, every other condition unchanged. -/
def MatchesRelaxed (m : GMsg α) (kw : Kwargs) : Prop :=
  0 ≤ m.startStep ∧ ∀ k c, (k, c) ∈ kw → k ≠ "startStep".toList → ∃ x, m.get? k = some x ∧ c.holds x = true
end Spec

theorem find_iff (m : GMsg α) (kw : Kwargs) : find m kw = true ↔ Spec.Matches m kw := by
  induction kw with
  | nil => simp [find, Spec.Matches]
  | cons p kw ih =>
    obtain ⟨k, c⟩ := p
    unfold find
    cases hx : m.get? k with
    | none =>
      simp only [Bool.false_eq_true, false_iff]
      intro h
      obtain ⟨x, h1, -⟩ := h k c (by simp)
      rw [hx] at h1; cases h1
    | some x =>
      dsimp only
      by_cases hc : c.holds x = true
      · rw [if_pos hc, ih]
        constructor
        · intro h k' c' hm
          rcases List.mem_cons.1 hm with he | hm
          · cases he; exact ⟨x, hx, hc⟩
          · exact h k' c' hm
        · intro h k' c' hm; exact h k' c' (List.mem_cons_of_mem _ hm)
      · rw [if_neg hc]
        simp only [Bool.false_eq_true, false_iff]
        intro h
        obtain ⟨y, h1, h2⟩ := h k c (by simp)
        rw [hx] at h1; cases h1; exact hc h2

theorem matchAt_iff (file : List (GMsg α)) (kw : Kwargs) (i : Nat) :
    matchAt file kw i = true ↔ Spec.MatchesAt file kw i := by
  unfold matchAt Spec.MatchesAt
  cases h : file[i]? with
  | none => simp
  | some m =>
    dsimp only
    rw [find_iff]
    constructor
    · intro hm; exact ⟨m, rfl, hm⟩
    · rintro ⟨m', h1, h2⟩; cases h1; exact h2

theorem get?_shortName (m : GMsg α) : m.get? "shortName".toList = some (.str m.shortName) := by
  unfold GMsg.get?; rw [if_pos rfl]

theorem get?_startStep (m : GMsg α) : m.get? "startStep".toList = some (.int m.startStep) := by
  unfold GMsg.get?; rw [if_neg (by decide), if_pos rfl]

theorem get?_pert (m : GMsg α) :
    m.get? "perturbationNumber".toList = Dict.get? m.other "perturbationNumber".toList := by
  unfold GMsg.get?
  rw [if_neg (by decide), if_neg (by decide), if_neg (by decide), if_neg (by decide),
    if_neg (by decide), if_neg (by decide)]

theorem name_of_matches {m : GMsg α} {kw : Kwargs} {c : Cond}
    (hc : Dict.get? kw "shortName".toList = some c) (hcall : ∀ p, c ≠ .pred p)
    (hm : Spec.Matches m kw) : m.shortName ∈ shortNames c := by
  obtain ⟨x, h1, h2⟩ := hm _ _ (Dict.mem_of_get? hc)
  rw [get?_shortName] at h1; cases h1
  cases c with
  | eq v =>
    have : KV.str m.shortName = v := by simpa [Cond.holds] using h2
    subst this; simp [shortNames]
  | mem l =>
    have : KV.str m.shortName ∈ l := by simpa [Cond.holds] using h2
    simp only [shortNames, List.mem_flatMap]
    exact ⟨_, this, by simp⟩
  | pred p => exact absurd rfl (hcall p)

theorem pert_of_matches {m : GMsg α} {kw : Kwargs} (hm : Spec.Matches m kw) :
    pertOf kw = -1 ∨ Dict.get? m.other "perturbationNumber".toList = some (.int (pertOf kw)) := by
  unfold pertOf
  cases h : Dict.get? kw "perturbationNumber".toList with
  | none => left; rfl
  | some c =>
    cases c with
    | eq v =>
      cases v with
      | int z =>
        right
        obtain ⟨x, h1, h2⟩ := hm _ _ (Dict.mem_of_get? h)
        have : x = KV.int z := by simpa [Cond.holds] using h2
        subst this
        rw [get?_pert] at h1
        exact h1
      | str s => left; rfl
    | mem l => left; rfl
    | pred p => left; rfl

/-- The positions a scan returns. -/
theorem scan_exact (file : List (GMsg α)) (r : Reader) (kw : Kwargs) (c : Cond)
    (hc : Dict.get? kw "shortName".toList = some c) (hcall : ∀ p, c ≠ .pred p)
    (hnd : (shortNames c).Nodup) (hsrc : (∃ b, r.src = .index b) ∨ r.src = .file 0) :
    ∃ g r', scan file r kw = (.ok g, r') ∧ r'.src = srcAfter file r.src ∧
      Spec.SelectsExactly file kw (g.map (·.2)) := by
  unfold scan
  rw [hc]
  refine ⟨_, _, rfl, rfl, ?_⟩
  rw [scanLoop_pos]
  rcases hsrc with ⟨b, hb⟩ | hf
  · rw [hb]
    have hv : visited file (.index b) kw (shortNames c) =
        (shortNames c).flatMap fun v => (List.range file.length).filter fun i =>
          match file[i]? with
          | some m => decide (m.shortName = v) &&
            (decide (pertOf kw = -1) ||
              decide (Dict.get? m.other "perturbationNumber".toList = some (.int (pertOf kw))))
          | none => false := rfl
    have hmemv : ∀ v i, (i ∈ (List.range file.length).filter fun i =>
          match file[i]? with
          | some m => decide (m.shortName = v) &&
            (decide (pertOf kw = -1) ||
              decide (Dict.get? m.other "perturbationNumber".toList = some (.int (pertOf kw))))
          | none => false) → ∃ m, file[i]? = some m ∧ m.shortName = v := by
      intro v i hi
      have h2 := (List.mem_filter.1 hi).2
      cases hm : file[i]? with
      | none => rw [hm] at h2; cases h2
      | some m =>
        rw [hm] at h2
        simp only [Bool.and_eq_true, decide_eq_true_eq] at h2
        exact ⟨m, rfl, h2.1⟩
    constructor
    · intro i
      rw [List.mem_filter, matchAt_iff]
      constructor
      · exact fun h => h.2
      · intro h
        refine ⟨?_, h⟩
        obtain ⟨m, h1, h2⟩ := h
        rw [hv, List.mem_flatMap]
        refine ⟨m.shortName, name_of_matches hc hcall h2, ?_⟩
        rw [List.mem_filter]
        have hl : i < file.length := by
          by_contra hl; rw [List.getElem?_eq_none (by omega)] at h1; cases h1
        refine ⟨List.mem_range.2 hl, ?_⟩
        rw [h1]
        dsimp only
        rw [Bool.and_eq_true, Bool.or_eq_true]
        exact ⟨decide_eq_true rfl, (pert_of_matches h2).imp decide_eq_true decide_eq_true⟩
    · refine List.Nodup.filter _ ?_
      rw [hv, List.nodup_flatMap]
      refine ⟨fun v _ => List.nodup_range.filter _, ?_⟩
      refine hnd.imp ?_
      intro a b' hab i hi hi'
      obtain ⟨m, h1, h2⟩ := hmemv a i hi
      obtain ⟨m', h1', h2'⟩ := hmemv b' i hi'
      rw [h1] at h1'; cases h1'
      exact hab (h2.symm.trans h2')
    · refine List.Pairwise.filter _ ?_
      rw [hv, List.pairwise_flatMap]
      refine ⟨fun v _ => ?_, ?_⟩
      · refine List.Pairwise.filter _ ?_
        exact List.pairwise_lt_range.imp (fun h _ _ _ _ _ => h)
      · refine hnd.imp ?_
        intro a b' hab i hi j hj m m' hm hm' he
        exfalso
        obtain ⟨n, h1, h2⟩ := hmemv a i hi
        obtain ⟨n', h1', h2'⟩ := hmemv b' j hj
        rw [hm] at h1; rw [hm'] at h1'; cases h1; cases h1'
        exact hab (h2.symm.trans (he.trans h2'))
  · rw [hf]
    have hv : visited file (.file 0) kw (shortNames c) =
        (List.range file.length).filter fun i => decide (0 ≤ i) := rfl
    constructor
    · intro i
      rw [List.mem_filter, matchAt_iff]
      constructor
      · exact fun h => h.2
      · intro h
        refine ⟨?_, h⟩
        obtain ⟨m, h1, h2⟩ := h
        have hl : i < file.length := by
          by_contra hl; rw [List.getElem?_eq_none (by omega)] at h1; cases h1
        rw [hv, List.mem_filter]
        exact ⟨List.mem_range.2 hl, by simp⟩
    · rw [hv]; exact (List.nodup_range.filter _).filter _
    · rw [hv]
      exact ((List.pairwise_lt_range.filter _).filter _).imp (fun h _ _ _ _ _ => h)

/-- C26: a scan returns exactly the messages satisfying the selection. For a file read through the index
or not read yet, and a selection whose short name is a plain value or a list of distinct names. -/
theorem C26_scan_exact_partial (file : List (GMsg α)) (r : Reader) (kw : Kwargs) (c : Cond)
    (hc : Dict.get? kw "shortName".toList = some c) (hcall : ∀ p, c ≠ .pred p)
    (hnd : (shortNames c).Nodup) (hsrc : (∃ b, r.src = .index b) ∨ r.src = .file 0) :
    ∃ g r', scan file r kw = (.ok g, r') ∧ Spec.SelectsExactly file kw (g.map (·.2)) := by
  obtain ⟨g, r', h1, -, h2⟩ := scan_exact file r kw c hc hcall hnd hsrc
  exact ⟨g, r', h1, h2⟩

/-- A message for examples. -/
def exMsg (name : String) (s e : Int) (nj : Int := 10) : GMsg Int :=
  ⟨name.toList, s, e, nj, 0, "instant".toList, .fin 0, [], e⟩

def exFile : List (GMsg Int) :=
  [exMsg "2t" 0 6, exMsg "tp" 0 6, exMsg "2t" 6 12, exMsg "2T" 6 12, exMsg "2t" 12 18]

def exKw : Kwargs :=
  [("shortName".toList, .mem [.str "2t".toList, .str "2T".toList, .str "2tvar".toList]),
   ("startStep".toList, .pred fun v => match v with | .int z => decide (6 ≤ z) | .str _ => false)]

example : (∃ g r', scan exFile (init true false ⟨0, [], [], false⟩) exKw = (.ok g, r') ∧
    Spec.SelectsExactly exFile exKw (g.map (·.2))) :=
  C26_scan_exact_partial exFile _ exKw _ rfl (by intro p h; cases h) (by decide) (.inl ⟨false, rfl⟩)

example : ((scan exFile (init true false ⟨0, [], [], false⟩) exKw).1.map (·.map (·.2))) = .ok [2, 4, 3] := by
  decide +kernel

/-- C26 is violated when the list of short names has duplicates, which is what the program asks for when
the parameter name is already in upper case (context.py 151-155): the message is selected twice. -/
theorem C26_violated : ∃ g r',
    scan [exMsg "SD" 0 6] (init true false ⟨0, [], [], false⟩)
      [("shortName".toList, .mem [.str "SD".toList, .str "SD".toList, .str "SDvar".toList])] = (.ok g, r')
      ∧ g.map (·.2) = [0, 0] := by
  exact ⟨[(0, 0), (1, 0)], _, rfl, rfl⟩

/-! ## C27: fallback -/

theorem relaxed_iff (m : GMsg α) (kw : Kwargs) (hk : (Dict.keys kw).Nodup) :
    Spec.Matches m (relaxed kw) ↔ Spec.MatchesRelaxed m kw := by
  have hk' : (Dict.keys (relaxed kw)).Nodup := Dict.nodup_keys_set hk _ _
  have hmem : ∀ k c, (k, c) ∈ relaxed kw ↔
      (k = "startStep".toList ∧ c = .pred nonNeg) ∨ (k ≠ "startStep".toList ∧ (k, c) ∈ kw) := by
    intro k c
    have e1 : (k, c) ∈ relaxed kw ↔ Dict.get? (relaxed kw) k = some c :=
      ⟨Dict.get?_of_mem hk', Dict.mem_of_get?⟩
    have e2 : (k, c) ∈ kw ↔ Dict.get? kw k = some c := ⟨Dict.get?_of_mem hk, Dict.mem_of_get?⟩
    rw [e1, e2]
    unfold relaxed
    rw [Dict.get?_set]
    by_cases h : k = "startStep".toList
    · rw [if_pos h.symm]
      constructor
      · intro h2; cases h2; exact Or.inl ⟨h, rfl⟩
      · rintro (⟨-, rfl⟩ | ⟨h2, -⟩)
        · rfl
        · exact absurd h h2
    · rw [if_neg (fun h' => h h'.symm)]
      constructor
      · intro h2; exact Or.inr ⟨h, h2⟩
      · rintro (⟨h2, -⟩ | ⟨-, h2⟩)
        · exact absurd h2 h
        · exact h2
  constructor
  · intro h
    constructor
    · obtain ⟨x, h1, h2⟩ := h _ _ ((hmem _ _).2 (Or.inl ⟨rfl, rfl⟩))
      rw [get?_startStep] at h1; cases h1
      simpa [Cond.holds, nonNeg] using h2
    · intro k c hm hne
      exact h k c ((hmem _ _).2 (Or.inr ⟨hne, hm⟩))
  · rintro ⟨h0, h⟩ k c hm
    rcases (hmem _ _).1 hm with ⟨rfl, rfl⟩ | ⟨hne, hm⟩
    · exact ⟨_, get?_startStep m, by simpa [Cond.holds, nonNeg] using h0⟩
    · exact h k c hm hne

theorem get?_shortName_relaxed (kw : Kwargs) :
    Dict.get? (relaxed kw) "shortName".toList = Dict.get? kw "shortName".toList := by
  unfold relaxed; rw [Dict.get?_set, if_neg (by decide)]

/-- The start-step condition given is a predicate that rejects 0. -/
def Spec.ExcludesZero (kw : Kwargs) : Prop :=
  ∃ p, ("startStep".toList, Cond.pred p) ∈ kw ∧ p (.int 0) = false

theorem excludesZero_iff (kw : Kwargs) (hk : (Dict.keys kw).Nodup) :
    excludesZero kw = true ↔ Spec.ExcludesZero kw := by
  unfold excludesZero Spec.ExcludesZero
  constructor
  · intro h
    cases hg : Dict.get? kw "startStep".toList with
    | none => rw [hg] at h; cases h
    | some c =>
      rw [hg] at h
      cases c with
      | eq v => cases h
      | mem l => cases h
      | pred p => exact ⟨p, Dict.mem_of_get? hg, by simpa using h⟩
  · rintro ⟨p, h1, h2⟩
    rw [Dict.get?_of_mem hk h1]
    simp [h2]

/-- C27, index mode: the messages found are the matching ones if there are any; otherwise, if step 0 is
excluded, those that match with the start step relaxed; otherwise none. -/
theorem C27_fallback_partial (file : List (GMsg α)) (r : Reader) (kw : Kwargs) (c : Cond) (b : Bool)
    (hk : (Dict.keys kw).Nodup)
    (hc : Dict.get? kw "shortName".toList = some c) (hcall : ∀ p, c ≠ .pred p)
    (hnd : (shortNames c).Nodup) (hsrc : r.src = .index b) :
    ∃ g r', getGids file r kw = (.ok g, r') ∧
      ((∃ i, Spec.MatchesAt file kw i) → Spec.SelectsExactly file kw (g.map (·.2))) ∧
      ((∀ i, ¬ Spec.MatchesAt file kw i) → Spec.ExcludesZero kw →
        (g.map (·.2)).Nodup ∧
        ∀ i, i ∈ g.map (·.2) ↔ ∃ m, file[i]? = some m ∧ Spec.MatchesRelaxed m kw) ∧
      ((∀ i, ¬ Spec.MatchesAt file kw i) → ¬ Spec.ExcludesZero kw → g = []) := by
  obtain ⟨g, r1, h1, h2, h3⟩ := scan_exact file r kw c hc hcall hnd (.inl ⟨b, hsrc⟩)
  have hempty : g.length = 0 ↔ ∀ i, ¬ Spec.MatchesAt file kw i := by
    constructor
    · intro h i hi
      have := (h3.exact_ i).2 hi
      rw [List.length_eq_zero_iff.1 h] at this
      cases this
    · intro h
      rw [List.length_eq_zero_iff]
      cases g with
      | nil => rfl
      | cons p g => exact absurd ((h3.exact_ p.2).1 (by simp)) (h _)
  unfold getGids
  rw [h1]
  dsimp only
  by_cases hcond : g.length = 0 ∧ excludesZero kw = true
  · rw [if_pos hcond]
    have hnone := hempty.1 hcond.1
    have hez := (excludesZero_iff kw hk).1 hcond.2
    obtain ⟨g', r2, k1, -, k3⟩ := scan_exact file r1 (relaxed kw) c
      (by rw [get?_shortName_relaxed]; exact hc) hcall hnd (.inl ⟨b, by rw [h2, hsrc]; rfl⟩)
    refine ⟨g', r2, k1, ?_, ?_, ?_⟩
    · rintro ⟨i, hi⟩; exact absurd hi (hnone i)
    · intro _ _
      refine ⟨k3.once, ?_⟩
      intro i
      rw [k3.exact_]
      constructor
      · rintro ⟨m, a, hb⟩; exact ⟨m, a, (relaxed_iff m kw hk).1 hb⟩
      · rintro ⟨m, a, hb⟩; exact ⟨m, a, (relaxed_iff m kw hk).2 hb⟩
    · intro _ hne; exact absurd hez hne
  · rw [if_neg hcond]
    refine ⟨g, r1, rfl, fun _ => h3, ?_, ?_⟩
    · intro hn he
      exact absurd ⟨hempty.2 hn, (excludesZero_iff kw hk).2 he⟩ hcond
    · intro hn _
      exact List.length_eq_zero_iff.1 (hempty.2 hn)

/-- C27: when nothing is found, both the information request and the selection report error 3000;
when something is found neither does. -/
theorem C27_no_messages (file : List (GMsg α)) (r r' : Reader) (kw : Kwargs) (g : List (Nat × Nat))
    (h : getGids file r kw = (.ok g, r')) :
    (g = [] → (gribInfo file r kw).1 = .error (.app 3000) ∧ ∃ r2, Reader.select file r kw =
      (.error (.app 3000), r2)) ∧
    (g ≠ [] → (gribInfo file r kw).1 ≠ .error (.app 3000) ∧ ∃ s r2, Reader.select file r kw = (.ok s, r2)) := by
  constructor
  · rintro rfl
    unfold gribInfo Reader.select
    rw [h]
    exact ⟨rfl, _, rfl⟩
  · intro hne
    have hl : g.length > 0 := List.length_pos_iff.2 hne
    unfold gribInfo Reader.select
    rw [h]
    dsimp only
    rw [if_pos hl, if_pos hl]
    refine ⟨?_, _, _, rfl⟩
    cases hf : findStartEnd (stepsOf file g) with
    | ok i => dsimp only; intro h; cases h
    | error e =>
      dsimp only
      intro he
      cases he
      unfold findStartEnd at hf
      split at hf <;> cases hf

/-- C27 is violated for files that cannot be indexed: the retry starts at the end of the file and finds
nothing, although a message matches the relaxed condition. -/
theorem C27_violated :
    Spec.MatchesRelaxed (exMsg "2t" 0 6) exKw ∧ Spec.ExcludesZero exKw ∧
    (∀ i, ¬ Spec.MatchesAt [exMsg "2t" 0 6] exKw i) ∧
    (getGids [exMsg "2t" 0 6] (init false false ⟨0, [], [], false⟩) exKw).1 = .ok [] := by
  refine ⟨?_, ⟨_, List.mem_cons_of_mem _ (List.mem_singleton.2 rfl), rfl⟩, ?_, by decide +kernel⟩
  · refine ⟨by decide, ?_⟩
    intro k c hm hne
    rcases List.mem_cons.1 hm with he | hm
    · cases he; exact ⟨_, rfl, by decide⟩
    · cases List.mem_singleton.1 hm; exact absurd rfl hne
  · intro i hi
    rw [← matchAt_iff] at hi
    rcases i with _ | i
    · revert hi; decide
    · simp [matchAt] at hi

example : ∃ g r', getGids [exMsg "2t" 0 6] (init true false ⟨0, [], [], false⟩) exKw = (.ok g, r') ∧
    g.map (·.2) = [0] := ⟨_, _, rfl, by decide +kernel⟩

end PyG2P
