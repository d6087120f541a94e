import Verif.Model.Text

/-! # Facts about text rendering -/

namespace PyG2P.Str

theorem digit_inj {a b : Nat} (h : digit a = digit b) : a % 10 = b % 10 := by
  have key : ∀ x < 10, ∀ y < 10, Char.ofNat (48 + x) = Char.ofNat (48 + y) → x = y := by decide
  exact key _ (Nat.mod_lt _ (by omega)) _ (Nat.mod_lt _ (by omega)) h

/-- The ten digits. -/
def IsDigit (c : Char) : Prop := ∃ d, d < 10 ∧ c = Char.ofNat (48 + d)

theorem isDigit_digit (a : Nat) : IsDigit (digit a) := ⟨a % 10, Nat.mod_lt _ (by omega), rfl⟩

theorem isDigit_ne {c : Char} (h : IsDigit c) : c ≠ '.' ∧ c ≠ '-' ∧ c ≠ '$' ∧ c ≠ 'M' ∧ c ≠ '_' := by
  obtain ⟨d, hd, rfl⟩ := h
  revert d; decide

theorem digit_ofNat {s : Str} {n : Nat} (hs : s = ofNat n) : ∀ c ∈ s, IsDigit c := by
  induction n using Nat.strong_induction_on generalizing s with
  | _ n ih =>
    subst hs
    unfold ofNat
    split_ifs with h
    · intro c hc; simp at hc; subst hc; exact isDigit_digit n
    · intro c hc
      rcases List.mem_append.1 hc with hc | hc
      · exact ih (n / 10) (by omega) rfl c hc
      · simp at hc; subst hc; exact isDigit_digit n

theorem ofNat_digits (n : Nat) : ∀ c ∈ ofNat n, IsDigit c := digit_ofNat rfl

theorem ofNat_ne_nil (n : Nat) : ofNat n ≠ [] := by
  unfold ofNat; split_ifs <;> simp

theorem ofNat_inj {n m : Nat} (h : ofNat n = ofNat m) : n = m := by
  induction n using Nat.strong_induction_on generalizing m with
  | _ n ih =>
    have eq : ∀ k, ofNat k = if k < 10 then [digit k] else ofNat (k / 10) ++ [digit k] := by
      intro k; rw [ofNat]; split_ifs <;> rfl
    rw [eq n, eq m] at h
    split_ifs at h with h1 h2 h2
    · have := digit_inj (List.singleton_inj.1 h)
      omega
    · exfalso
      have hl := congrArg List.length h
      have := List.length_pos_iff.2 (ofNat_ne_nil (m / 10))
      simp only [List.length_append, List.length_singleton] at hl; omega
    · exfalso
      have hl := congrArg List.length h
      have := List.length_pos_iff.2 (ofNat_ne_nil (n / 10))
      simp only [List.length_append, List.length_singleton] at hl; omega
    · have h3 := List.append_inj' h rfl
      have h4 := ih (n / 10) (by omega) h3.1
      have h5 := digit_inj (List.singleton_inj.1 h3.2)
      omega

theorem ofInt_inj {a b : Int} (h : ofInt a = ofInt b) : a = b := by
  unfold ofInt at h
  split_ifs at h with h1 h2 h2
  · have := ofNat_inj (List.cons_inj_right _ |>.1 h); omega
  · exfalso
    have : '-' ∈ ofNat b.natAbs := by rw [← h]; simp
    exact (isDigit_ne (ofNat_digits _ _ this)).2.1 rfl
  · exfalso
    have : '-' ∈ ofNat a.natAbs := by rw [h]; simp
    exact (isDigit_ne (ofNat_digits _ _ this)).2.1 rfl
  · have := ofNat_inj h; omega

theorem ofInt_chars (z : Int) : ∀ c ∈ ofInt z, IsDigit c ∨ c = '-' := by
  intro c hc
  unfold ofInt at hc
  split_ifs at hc
  · rcases List.mem_cons.1 hc with h | h
    · exact Or.inr h
    · exact Or.inl (ofNat_digits _ _ h)
  · exact Or.inl (ofNat_digits _ _ hc)

theorem ofInt_ne_nil (z : Int) : ofInt z ≠ [] := by
  unfold ofInt; split_ifs
  · simp
  · exact ofNat_ne_nil _

/-- Splitting at the first separator is unique. -/
theorem split_unique {a a' b b' : Str} {c : Char} (ha : c ∉ a) (ha' : c ∉ a')
    (h : a ++ c :: b = a' ++ c :: b') : a = a' ∧ b = b' := by
  induction a generalizing a' with
  | nil =>
    cases a' with
    | nil => simpa using h
    | cons x a' => simp at h; exact absurd h.1 (by intro hx; subst hx; simp at ha')
  | cons y a ih =>
    cases a' with
    | nil => simp at h; exact absurd h.1 (by intro hx; subst hx; simp at ha)
    | cons x a' =>
      simp only [List.cons_append, List.cons.injEq] at h
      obtain ⟨h1, h2⟩ := ih (by simp at ha; exact ha.2) (by simp at ha'; exact ha'.2) h.2
      exact ⟨by rw [h.1, h1], h2⟩

theorem rstrip_append_self (c : Char) (s : Str) : rstrip c (s ++ [c]) = rstrip c s := by
  simp [rstrip]

theorem rstrip_of_ne {c d : Char} (h : d ≠ c) (s : Str) : rstrip c (s ++ [d]) = s ++ [d] := by
  simp [rstrip, h]

theorem rstrip_mem {c d : Char} {s : Str} (h : d ∈ rstrip c s) : d ∈ s := by
  unfold rstrip at h
  have := List.mem_reverse.1 h
  have := (List.dropWhile_sublist _).subset this
  exact List.mem_reverse.1 this

/-- The stripped suffix consists of the stripped character. -/
theorem rstrip_spec (c : Char) (s : Str) : ∃ k, s = rstrip c s ++ List.replicate k c := by
  induction s using List.reverseRecOn with
  | nil => exact ⟨0, rfl⟩
  | append_singleton s d ih =>
    by_cases h : d = c
    · subst h
      obtain ⟨k, hk⟩ := ih
      refine ⟨k + 1, ?_⟩
      rw [rstrip_append_self]
      conv_lhs => rw [hk]
      rw [List.append_assoc, List.replicate_succ']
    · exact ⟨0, by rw [rstrip_of_ne h]; simp⟩

theorem rstrip_last (c : Char) (s : Str) : (rstrip c s).getLast? ≠ some c := by
  induction s using List.reverseRecOn with
  | nil => simp [rstrip]
  | append_singleton s d ih =>
    by_cases h : d = c
    · subst h; rw [rstrip_append_self]; exact ih
    · rw [rstrip_of_ne h]; simpa using h

theorem rstrip_eq_self {c : Char} {s : Str} (h : s.getLast? ≠ some c) : rstrip c s = s := by
  rcases List.eq_nil_or_concat s with rfl | ⟨t, d, rfl⟩
  · rfl
  · rw [List.concat_eq_append] at h ⊢
    exact rstrip_of_ne (by simpa using h) t

/-- Stripping after a character that is not stripped only affects what follows it. -/
theorem rstrip_append_sep {c d : Char} (h : d ≠ c) (a b : Str) :
    rstrip c (a ++ d :: b) = a ++ d :: rstrip c b := by
  induction b using List.reverseRecOn with
  | nil =>
    have : a ++ [d] = a ++ [d] := rfl
    rw [rstrip_of_ne h]; rfl
  | append_singleton b e ih =>
    by_cases he : e = c
    · subst he
      rw [rstrip_append_self, ← ih, ← List.cons_append, ← List.append_assoc, rstrip_append_self]
    · rw [rstrip_of_ne he, ← List.cons_append, ← List.append_assoc, rstrip_of_ne he]

end PyG2P.Str
