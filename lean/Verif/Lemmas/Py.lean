import Verif.Py

/-! # Lemmas about the Python runtime -/

namespace PyG2P

/-! ## Dictionaries -/
namespace Dict
variable {κ α : Type} [DecidableEq κ]

@[simp] theorem get?_nil (k : κ) : get? ([] : Dict κ α) k = none := rfl
theorem get?_cons (k' : κ) (v : α) (d : Dict κ α) (k : κ) :
    get? ((k', v) :: d) k = if k' = k then some v else get? d k := rfl

omit [DecidableEq κ] in
@[simp] theorem keys_nil : keys ([] : Dict κ α) = [] := rfl
omit [DecidableEq κ] in
@[simp] theorem keys_cons (p : κ × α) (d : Dict κ α) : keys (p :: d) = p.1 :: keys d := rfl

theorem get?_eq_none_iff {d : Dict κ α} {k : κ} : get? d k = none ↔ k ∉ keys d := by
  induction d with
  | nil => simp
  | cons p d ih =>
    obtain ⟨k', v⟩ := p
    rw [get?_cons]
    by_cases h : k' = k
    · simp [h]
    · simp [h, ih, Ne.symm h]

theorem get?_isSome_iff {d : Dict κ α} {k : κ} : (get? d k).isSome ↔ k ∈ keys d := by
  rw [← not_iff_not, Bool.not_eq_true, Option.isSome_eq_false_iff, Option.isNone_iff_eq_none,
    get?_eq_none_iff]

theorem exists_of_mem_keys {d : Dict κ α} {k : κ} (h : k ∈ keys d) : ∃ v, get? d k = some v :=
  Option.isSome_iff_exists.1 (get?_isSome_iff.2 h)

theorem mem_keys_of_get? {d : Dict κ α} {k : κ} {v : α} (h : get? d k = some v) : k ∈ keys d :=
  get?_isSome_iff.1 (by simp [h])

theorem mem_of_get? {d : Dict κ α} {k : κ} {v : α} (h : get? d k = some v) : (k, v) ∈ d := by
  induction d with
  | nil => simp at h
  | cons p d ih =>
    obtain ⟨k', v'⟩ := p
    rw [get?_cons] at h
    by_cases hk : k' = k
    · simp [hk] at h; simp [hk, h]
    · simp [hk] at h; simp [ih h]

theorem get?_of_mem {d : Dict κ α} (hd : (keys d).Nodup) {k : κ} {v : α} (h : (k, v) ∈ d) :
    get? d k = some v := by
  induction d with
  | nil => simp at h
  | cons p d ih =>
    obtain ⟨k', v'⟩ := p
    rw [get?_cons]
    simp only [keys_cons, List.nodup_cons] at hd
    rcases List.mem_cons.1 h with h | h
    · obtain ⟨rfl, rfl⟩ := Prod.mk.inj h; simp
    · have : k' ≠ k := by
        rintro rfl
        exact hd.1 (List.mem_map.2 ⟨_, h, rfl⟩)
      simp [this, ih hd.2 h]

theorem get?_set (d : Dict κ α) (k : κ) (v : α) (k' : κ) :
    get? (set d k v) k' = if k = k' then some v else get? d k' := by
  induction d with
  | nil => simp [set, get?]
  | cons p d ih =>
    obtain ⟨a, b⟩ := p
    simp only [set]
    by_cases h : a = k
    · subst h
      by_cases h' : a = k' <;> simp [get?_cons, h']
    · by_cases h' : k = k'
      · subst h'; simp [get?_cons, h, ih]
      · simp only [h, if_false, get?_cons, ih, h']

theorem keys_set (d : Dict κ α) (k : κ) (v : α) :
    keys (set d k v) = if k ∈ keys d then keys d else keys d ++ [k] := by
  induction d with
  | nil => simp [set]
  | cons p d ih =>
    obtain ⟨a, b⟩ := p
    simp only [set]
    by_cases h : a = k
    · simp [h]
    · simp only [h, if_false, keys_cons, ih]
      by_cases h' : k ∈ keys d <;> simp [h', Ne.symm h]

theorem set_of_not_mem {d : Dict κ α} {k : κ} (h : k ∉ keys d) (v : α) :
    set d k v = d ++ [(k, v)] := by
  induction d with
  | nil => rfl
  | cons p d ih =>
    obtain ⟨a, b⟩ := p
    simp only [keys_cons, List.mem_cons, not_or] at h
    simp [set, Ne.symm h.1, ih h.2]

theorem nodup_keys_set {d : Dict κ α} (hd : (keys d).Nodup) (k : κ) (v : α) :
    (keys (set d k v)).Nodup := by
  rw [keys_set]
  split
  · exact hd
  · rename_i h
    rw [List.nodup_append]
    refine ⟨hd, by simp, ?_⟩
    intro a ha b hb
    simp at hb; subst hb
    rintro rfl; exact h ha

theorem mem_keys_set {d : Dict κ α} {k k' : κ} {v : α} :
    k' ∈ keys (set d k v) ↔ k' = k ∨ k' ∈ keys d := by
  rw [keys_set]
  split
  · rename_i h
    constructor
    · exact Or.inr
    · rintro (rfl | h') <;> assumption
  · simp [or_comm]

theorem nodup_keys_update_aux (l : List (κ × α)) (d : Dict κ α) (hd : (keys d).Nodup) :
    (keys (l.foldl (fun d p => set d p.1 p.2) d)).Nodup := by
  induction l generalizing d with
  | nil => exact hd
  | cons p l ih => exact ih _ (nodup_keys_set hd _ _)

theorem nodup_keys_ofPairs (l : List (κ × α)) : (keys (ofPairs l)).Nodup :=
  nodup_keys_update_aux l [] (by simp)

theorem nodup_keys_update {d e : Dict κ α} (hd : (keys d).Nodup) : (keys (update d e)).Nodup :=
  nodup_keys_update_aux e d hd

/-- The last pair with key `k`, if any. -/
def lastPair (l : List (κ × α)) (k : κ) : Option α :=
  ((l.filter (fun p => p.1 = k)).getLast?).map (·.2)

theorem get?_foldl_set (l : List (κ × α)) (d : Dict κ α) (k : κ) :
    get? (l.foldl (fun d p => set d p.1 p.2) d) k = (lastPair l k).or (get? d k) := by
  induction l generalizing d with
  | nil => simp [lastPair]
  | cons p l ih =>
    rw [List.foldl_cons, ih, get?_set]
    unfold lastPair
    by_cases h : p.1 = k
    · simp only [h, if_true]
      rw [List.filter_cons_of_pos (by simpa using h)]
      rw [List.getLast?_cons]
      cases hh : (l.filter (fun p => decide (p.1 = k))).getLast? <;> simp
    · simp only [h, if_false]
      rw [List.filter_cons_of_neg (by simpa using h)]

theorem get?_ofPairs (l : List (κ × α)) (k : κ) : get? (ofPairs l) k = lastPair l k := by
  unfold ofPairs; rw [get?_foldl_set]; simp

theorem get?_update (d e : Dict κ α) (k : κ) :
    get? (update d e) k = (lastPair e k).or (get? d k) := get?_foldl_set e d k

theorem lastPair_eq_get? {e : Dict κ α} (he : (keys e).Nodup) (k : κ) :
    lastPair e k = get? e k := by
  induction e with
  | nil => rfl
  | cons p e ih =>
    obtain ⟨a, b⟩ := p
    simp only [keys_cons, List.nodup_cons] at he
    rw [get?_cons]
    unfold lastPair at *
    by_cases h : a = k
    · subst h
      rw [List.filter_cons_of_pos (by simp)]
      have : e.filter (fun p => decide (p.1 = a)) = [] := by
        rw [List.filter_eq_nil_iff]
        intro p hp
        simp only [decide_eq_true_eq]
        rintro rfl
        exact he.1 (List.mem_map.2 ⟨p, hp, rfl⟩)
      simp [this]
    · rw [List.filter_cons_of_neg (by simpa using h)]
      simp only [h, if_false]; exact ih he.2

theorem getE_eq_ok {d : Dict κ α} {k : κ} {v : α} : getE d k = .ok v ↔ get? d k = some v := by
  unfold getE; cases h : get? d k <;> simp

theorem getE_of_get? {d : Dict κ α} {k : κ} {v : α} (h : get? d k = some v) : getE d k = .ok v :=
  getE_eq_ok.2 h

theorem getE_eq_error {d : Dict κ α} {k : κ} {e : PyErr} :
    getE d k = .error e ↔ get? d k = none ∧ e = .keyError := by
  unfold getE; cases h : get? d k
  · simp [eq_comm]
  · simp

theorem get?_perm {d e : Dict κ α} (h : d.Perm e) (hd : (keys d).Nodup) (k : κ) :
    get? d k = get? e k := by
  have hm : (keys d).Perm (keys e) := h.map _
  have he : (keys e).Nodup := hm.nodup_iff.1 hd
  cases hk : get? d k with
  | none =>
    rw [get?_eq_none_iff] at hk
    symm; rw [get?_eq_none_iff]
    intro hc; exact hk (hm.mem_iff.2 hc)
  | some v =>
    symm; exact get?_of_mem he (h.mem_iff.1 (mem_of_get? hk))

theorem get?_append (d e : Dict κ α) (k : κ) : get? (d ++ e) k = (get? d k).or (get? e k) := by
  induction d with
  | nil => simp
  | cons p d ih =>
    obtain ⟨a, b⟩ := p
    simp only [List.cons_append, get?_cons, ih]
    split <;> simp

end Dict

/-! ## sorted -/

theorem sortedBy_perm {α : Type} (f : α → Int) (l : List α) : (sortedBy f l).Perm l :=
  List.perm_insertionSort _ _

theorem sortedBy_pairwise {α : Type} (f : α → Int) (l : List α) :
    (sortedBy f l).Pairwise (fun a b => f a ≤ f b) := by
  unfold sortedBy
  have : Std.Total (fun a b => f a ≤ f b) := ⟨fun a b => le_total _ _⟩
  have : IsTrans α (fun a b => f a ≤ f b) := ⟨fun a b c => le_trans⟩
  exact List.pairwise_insertionSort _ _

/-! ## indexing and ranges -/

theorem pyGet_natCast {α : Type} (l : List α) (i : Nat) (a : α) (h : l[i]? = some a) :
    pyGet l (i : Int) = .ok a := by
  unfold pyGet
  have : ¬ ((i : Int) < 0) := by omega
  simp [this, h]

theorem pyGet_natCast_error {α : Type} (l : List α) (i : Nat) (h : l.length ≤ i) :
    pyGet l (i : Int) = .error .indexError := by
  unfold pyGet
  have : ¬ ((i : Int) < 0) := by omega
  simp [this, List.getElem?_eq_none h]

theorem pyGet_zero_cons {α : Type} (a : α) (l : List α) : pyGet (a :: l) 0 = .ok a := by
  unfold pyGet; simp

theorem pyGet_zero_nil {α : Type} : pyGet ([] : List α) 0 = .error .indexError := by
  unfold pyGet; simp

theorem pyGet_neg_one {α : Type} (l : List α) (a : α) (h : l.getLast? = some a) :
    pyGet l (-1) = .ok a := by
  have hne : l ≠ [] := by rintro rfl; simp at h
  have hl : 0 < l.length := List.length_pos_of_ne_nil hne
  unfold pyGet
  have h1 : ¬ ((-1 : Int) + l.length < 0) := by omega
  have h2 : ((-1 : Int) + l.length).toNat = l.length - 1 := by omega
  rw [List.getLast?_eq_getElem?] at h
  simp only [show ((-1 : Int) < 0) by omega, if_true, h1, if_false, h2, h]

theorem pyGet_ok_iff {α : Type} (l : List α) (i : Int) (a : α) (hi : 0 ≤ i) :
    pyGet l i = .ok a ↔ l[i.toNat]? = some a := by
  unfold pyGet
  have : ¬ (i < 0) := by omega
  simp only [this, if_false]
  cases h : l[i.toNat]? <;> simp

/-- Elements of a non-empty-step range with positive step. -/
def rangeList (a b s : Int) : List Int :=
  (List.range ((b - a + s - 1) / s).toNat).map (fun (i : Nat) => a + (i : Int) * s)

theorem pyRange_pos {a b s : Int} (hs : 0 < s) : pyRange a b s = .ok (rangeList a b s) := by
  unfold pyRange rangeList
  simp [hs, hs.ne']

theorem mem_rangeList {a b s : Int} (hs : 0 < s) {t : Int} :
    t ∈ rangeList a b s ↔ ∃ k : Nat, t = a + k * s ∧ t < b := by
  unfold rangeList
  simp only [List.mem_map, List.mem_range]
  constructor
  · rintro ⟨k, hk, rfl⟩
    refine ⟨k, rfl, ?_⟩
    have h1 : (k : Int) < (b - a + s - 1) / s := by omega
    have h2 : ((k : Int) + 1) * s ≤ b - a + s - 1 :=
      (Int.le_ediv_iff_mul_le hs).1 (by omega)
    nlinarith
  · rintro ⟨k, rfl, hk⟩
    refine ⟨k, ?_, rfl⟩
    have h2 : ((k : Int) + 1) * s ≤ b - a + s - 1 := by nlinarith
    have := (Int.le_ediv_iff_mul_le hs).2 h2
    omega

theorem rangeList_pairwise {a b s : Int} (hs : 0 < s) :
    (rangeList a b s).Pairwise (· < ·) := by
  unfold rangeList
  rw [List.pairwise_map]
  refine List.Pairwise.imp ?_ List.pairwise_lt_range
  intro i j hij
  have : (i : Int) < j := by exact_mod_cast hij
  nlinarith

theorem rangeList_nodup {a b s : Int} (hs : 0 < s) : (rangeList a b s).Nodup :=
  (rangeList_pairwise hs).imp (fun h => ne_of_lt h)

/-! ## bisect -/

theorem bisectLeftGo_spec (a : List Int) (x : Int) (ha : a.Pairwise (· ≤ ·)) :
    ∀ fuel lo hi, hi ≤ a.length → hi ≤ lo + fuel → lo ≤ hi →
      (∀ i (h : i < a.length), i < lo → a[i] < x) →
      (∀ i (h : i < a.length), hi ≤ i → x ≤ a[i]) →
      lo ≤ bisectLeftGo a x fuel lo hi ∧ bisectLeftGo a x fuel lo hi ≤ hi ∧
      (∀ i (h : i < a.length), i < bisectLeftGo a x fuel lo hi → a[i] < x) ∧
      (∀ i (h : i < a.length), bisectLeftGo a x fuel lo hi ≤ i → x ≤ a[i]) := by
  intro fuel
  induction fuel with
  | zero =>
    intro lo hi h1 h2 h3 hl hr
    have : lo = hi := by omega
    subst this
    exact ⟨le_refl _, le_refl _, hl, hr⟩
  | succ fuel ih =>
    intro lo hi h1 h2 h3 hl hr
    unfold bisectLeftGo
    by_cases hlt : lo < hi
    · simp only [hlt, if_true]
      have hm1 : (lo + hi) / 2 < hi := by omega
      have hm2 : lo ≤ (lo + hi) / 2 := by omega
      have hml : (lo + hi) / 2 < a.length := by omega
      have hget : a.getD ((lo + hi) / 2) 0 = a[(lo + hi) / 2] := by
        simp [List.getD, List.getElem?_eq_getElem hml]
      rw [hget]
      by_cases hx : a[(lo + hi) / 2] < x
      · simp only [hx, if_true]
        have := ih ((lo + hi) / 2 + 1) hi h1 (by omega) (by omega)
          (fun i hi' hlt' => by
            have hle : a[i] ≤ a[(lo + hi) / 2] := by
              rcases Nat.lt_or_ge i ((lo + hi) / 2) with h | h
              · exact List.pairwise_iff_getElem.1 ha i _ hi' hml h
              · have : i = (lo + hi) / 2 := by omega
                subst this; exact le_refl _
            omega) hr
        exact ⟨by omega, this.2.1, this.2.2⟩
      · simp only [hx, if_false]
        have := ih lo ((lo + hi) / 2) (by omega) (by omega) hm2 hl
          (fun i hi' hge => by
            have hle : a[(lo + hi) / 2] ≤ a[i] := by
              rcases Nat.lt_or_ge ((lo + hi) / 2) i with h | h
              · exact List.pairwise_iff_getElem.1 ha _ i hml hi' h
              · have : i = (lo + hi) / 2 := by omega
                subst this; exact le_refl _
            omega)
        exact ⟨this.1, by omega, this.2.2⟩
    · simp only [hlt, if_false]
      have : lo = hi := by omega
      subst this
      exact ⟨le_refl _, le_refl _, hl, hr⟩

/-- `bisect_left` on a sorted list splits it into elements `< x` and elements `≥ x`. -/
theorem bisectLeft_spec {a : List Int} (ha : a.Pairwise (· ≤ ·)) (x : Int) :
    bisectLeft a x ≤ a.length ∧
    (∀ i (h : i < a.length), i < bisectLeft a x → a[i] < x) ∧
    (∀ i (h : i < a.length), bisectLeft a x ≤ i → x ≤ a[i]) := by
  have := bisectLeftGo_spec a x ha a.length 0 a.length (le_refl _) (by omega) (by omega)
    (by intro i h h'; omega) (by intro i h h'; omega)
  exact ⟨this.2.1, this.2.2⟩

theorem bisectGo_eq_of_not_mem (a : List Int) (x : Int) (hx : x ∉ a) :
    ∀ fuel lo hi, hi ≤ a.length → bisectRightGo a x fuel lo hi = bisectLeftGo a x fuel lo hi := by
  intro fuel
  induction fuel with
  | zero => intros; rfl
  | succ fuel ih =>
    intro lo hi h1
    unfold bisectRightGo bisectLeftGo
    by_cases hlt : lo < hi
    · simp only [hlt, if_true]
      have hml : (lo + hi) / 2 < a.length := by omega
      have hget : a.getD ((lo + hi) / 2) 0 = a[(lo + hi) / 2] := by
        simp [List.getD, List.getElem?_eq_getElem hml]
      rw [hget]
      have hne : a[(lo + hi) / 2] ≠ x := fun h => hx (h ▸ List.getElem_mem hml)
      by_cases hc : a[(lo + hi) / 2] < x
      · have : ¬ (x < a[(lo + hi) / 2]) := by omega
        simp only [hc, this, if_true, if_false]
        exact ih _ _ h1
      · have : x < a[(lo + hi) / 2] := by omega
        simp only [hc, this, if_true, if_false]
        exact ih _ _ (by omega)
    · simp only [hlt, if_false]

/-- For an absent element `bisect_right` and `bisect_left` coincide (sorted or not). -/
theorem bisectRight_eq_left {a : List Int} {x : Int} (hx : x ∉ a) :
    bisectRight a x = bisectLeft a x := bisectGo_eq_of_not_mem a x hx _ _ _ (le_refl _)

/-! ## folds in `Except` -/

theorem bind_ok_iff {ε α β : Type} {x : Except ε α} {f : α → Except ε β} {b : β} :
    (x >>= f) = .ok b ↔ ∃ a, x = .ok a ∧ f a = .ok b := by
  cases x with
  | error e => simp [bind, Except.bind]
  | ok a => simp [bind, Except.bind]

@[simp] theorem ok_bind {ε α β : Type} (a : α) (f : α → Except ε β) :
    ((Except.ok a : Except ε α) >>= f) = f a := rfl

@[simp] theorem error_bind {ε α β : Type} (e : ε) (f : α → Except ε β) :
    ((Except.error e : Except ε α) >>= f) = .error e := rfl

/-- Invariant rule for `foldlM`. -/
theorem foldlM_inv {ε α β : Type} (f : β → α → Except ε β) (P : List α → β → Prop)
    (l : List α) (b b' : β) (h0 : P [] b)
    (hstep : ∀ pre x post s s', l = pre ++ x :: post → P pre s → f s x = .ok s' → P (pre ++ [x]) s')
    (h : l.foldlM f b = .ok b') : P l b' := by
  suffices H : ∀ (post : List α) (pre : List α) (s : β), l = pre ++ post → P pre s →
      post.foldlM f s = .ok b' → P l b' from H l [] b (by simp) h0 h
  intro post
  induction post with
  | nil =>
    intro pre s hl hp hf
    simp only [List.foldlM_nil, pure, Except.pure] at hf
    injection hf with hf
    subst hf
    simpa [hl] using hp
  | cons x post ih =>
    intro pre s hl hp hf
    rw [List.foldlM_cons, bind_ok_iff] at hf
    obtain ⟨s', hs', hf⟩ := hf
    exact ih (pre ++ [x]) s' (by simp [hl]) (hstep pre x post s s' hl hp hs') hf

/-- Totality rule for `foldlM`. -/
theorem foldlM_total {ε α β : Type} (f : β → α → Except ε β) (P : List α → β → Prop)
    (l : List α) (b : β) (h0 : P [] b)
    (hstep : ∀ pre x post s, l = pre ++ x :: post → P pre s → ∃ s', f s x = .ok s' ∧ P (pre ++ [x]) s') :
    ∃ b', l.foldlM f b = .ok b' ∧ P l b' := by
  suffices H : ∀ (post : List α) (pre : List α) (s : β), l = pre ++ post → P pre s →
      ∃ b', post.foldlM f s = .ok b' ∧ P l b' from H l [] b (by simp) h0
  intro post
  induction post with
  | nil =>
    intro pre s hl hp
    exact ⟨s, rfl, by simpa [hl] using hp⟩
  | cons x post ih =>
    intro pre s hl hp
    obtain ⟨s', hs', hp'⟩ := hstep pre x post s hl hp
    obtain ⟨b', hb', hP⟩ := ih (pre ++ [x]) s' (by simp [hl]) hp'
    exact ⟨b', by rw [List.foldlM_cons, hs']; exact hb', hP⟩

/-- Two folds whose steps are related give related results (both fail with the same error, or both
succeed). -/
theorem foldlM_rel {ε α β γ : Type} (f : β → α → Except ε β) (g : γ → α → Except ε γ)
    (R : β → γ → Prop) (l : List α) :
    ∀ (b : β) (c : γ), R b c →
    (∀ x ∈ l, ∀ s t, R s t → (∃ e, f s x = .error e ∧ g t x = .error e) ∨
      (∃ s' t', f s x = .ok s' ∧ g t x = .ok t' ∧ R s' t')) →
    (∃ e, l.foldlM f b = .error e ∧ l.foldlM g c = .error e) ∨
      (∃ b' c', l.foldlM f b = .ok b' ∧ l.foldlM g c = .ok c' ∧ R b' c') := by
  induction l with
  | nil => intro b c h _; exact Or.inr ⟨b, c, rfl, rfl, h⟩
  | cons x l ih =>
    intro b c h hstep
    rw [List.foldlM_cons, List.foldlM_cons]
    rcases hstep x (by simp) b c h with ⟨e, h1, h2⟩ | ⟨s', t', h1, h2, h3⟩
    · rw [h1, h2]; exact Or.inl ⟨e, rfl, rfl⟩
    · rw [h1, h2, ok_bind, ok_bind]
      exact ih s' t' h3 (fun y hy => hstep y (List.mem_cons_of_mem _ hy))

theorem Dict.mem_set {κ α : Type} [DecidableEq κ] {d : Dict κ α} {k : κ} {v : α} {q : κ × α}
    (h : q ∈ Dict.set d k v) : q ∈ d ∨ q = (k, v) := by
  induction d with
  | nil => exact Or.inr (List.mem_singleton.1 h)
  | cons p d ih =>
    unfold Dict.set at h
    split at h
    · next e =>
      rcases List.mem_cons.1 h with h | h
      · exact Or.inr (by rw [h, e])
      · exact Or.inl (List.mem_cons_of_mem _ h)
    · rcases List.mem_cons.1 h with h | h
      · exact Or.inl (by rw [h]; simp)
      · rcases ih h with h | h
        · exact Or.inl (List.mem_cons_of_mem _ h)
        · exact Or.inr h

theorem Dict.mem_update {κ α : Type} [DecidableEq κ] (e : Dict κ α) : ∀ (d : Dict κ α) {q : κ × α},
    q ∈ Dict.update d e → q ∈ d ∨ q ∈ e := by
  induction e with
  | nil => intro d q h; exact Or.inl h
  | cons p e ih =>
    intro d q h
    rcases ih (Dict.set d p.1 p.2) h with h | h
    · rcases Dict.mem_set h with h | h
      · exact Or.inl h
      · exact Or.inr (by rw [h]; simp)
    · exact Or.inr (List.mem_cons_of_mem _ h)

end PyG2P
