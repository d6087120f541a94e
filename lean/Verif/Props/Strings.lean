import Verif.Model.Strings
import Verif.Props.UserConf

/-! # C47, C48, C49 — booleans, commands, file names -/

namespace PyG2P

/-! ## C47 -/

theorem toUpper_eq_iff {c : Char} {u l : Char} (hu : 65 ≤ u.toNat ∧ u.toNat ≤ 90) (hl : l.toNat = u.toNat + 32) :
    c.toUpper = u ↔ c = u ∨ c = l := by
  have key : ∀ a b : Char, a = b ↔ a.toNat = b.toNat := fun a b =>
    ⟨fun h => by rw [h], fun h => Char.ext (UInt32.toNat_inj.1 h)⟩
  unfold Char.toUpper
  by_cases h : 97 ≤ c.val.toNat ∧ c.val.toNat ≤ 122
  · have h' : c.val ≥ 'a'.val ∧ c.val ≤ 'z'.val := by
      rw [ge_iff_le, UInt32.le_iff_toNat_le, UInt32.le_iff_toNat_le]
      exact h
    rw [dif_pos h']
    rw [key, key c u, key c l]
    have e : (c.val + ('A'.val - 'a'.val)).toNat = c.val.toNat - 32 := by
      have h1 : ('A'.val - 'a'.val).toNat = 4294967264 := by decide
      rw [UInt32.toNat_add, h1]
      omega
    change (c.val + ('A'.val - 'a'.val)).toNat = u.toNat ↔ c.val.toNat = u.toNat ∨ c.val.toNat = l.toNat
    rw [e]
    omega
  · have h' : ¬ (c.val ≥ 'a'.val ∧ c.val ≤ 'z'.val) := by
      rw [ge_iff_le, UInt32.le_iff_toNat_le, UInt32.le_iff_toNat_le]
      exact h
    rw [dif_neg h']
    constructor
    · exact Or.inl
    · rintro (h1 | h1)
      · exact h1
      · exfalso
        rw [key] at h1
        apply h
        change 97 ≤ c.toNat ∧ c.toNat ≤ 122
        omega

/-- **C47.** A configuration value counts as true exactly when it is the value true or a string starting with
`t`, `T`, `y` or `Y`; as false exactly when it is absent, the value false, or a non-empty string starting
otherwise. The empty string gives IndexError, a number TypeError. -/
theorem boolean_strings (v : JVal) :
    (toBoolean v = .ok true ↔ v = .bool true ∨
      ∃ c s, v = .str (c :: s) ∧ (c = 't' ∨ c = 'T' ∨ c = 'y' ∨ c = 'Y')) ∧
    (toBoolean v = .ok false ↔ v = .null ∨ v = .bool false ∨
      ∃ c s, v = .str (c :: s) ∧ ¬ (c = 't' ∨ c = 'T' ∨ c = 'y' ∨ c = 'Y')) ∧
    (∀ e, toBoolean v = .error e ↔ (v = .str [] ∧ e = .indexError) ∨
      (((∃ z, v = .int z) ∨ ∃ q, v = .num q) ∧ e = .typeError)) := by
  have hc : ∀ c : Char, (decide (c.toUpper = 'T') || decide (c.toUpper = 'Y')) = true ↔
      (c = 't' ∨ c = 'T' ∨ c = 'y' ∨ c = 'Y') := by
    intro c
    rw [Bool.or_eq_true, decide_eq_true_eq, decide_eq_true_eq,
      toUpper_eq_iff (l := 't') (by decide) (by decide), toUpper_eq_iff (l := 'y') (by decide) (by decide)]
    constructor
    · rintro ((h | h) | (h | h))
      · exact Or.inr (Or.inl h)
      · exact Or.inl h
      · exact Or.inr (Or.inr (Or.inr h))
      · exact Or.inr (Or.inr (Or.inl h))
    · rintro (h | h | h | h)
      · exact Or.inl (Or.inr h)
      · exact Or.inl (Or.inl h)
      · exact Or.inr (Or.inr h)
      · exact Or.inr (Or.inl h)
  cases v with
  | null => simp [toBoolean]
  | bool b => cases b <;> simp [toBoolean]
  | int z => simp [toBoolean, eq_comm]
  | num q => simp [toBoolean, eq_comm]
  | str s =>
    cases s with
    | nil => simp [toBoolean, eq_comm]
    | cons c s =>
      have e : toBoolean (.str (c :: s)) = .ok (decide (c.toUpper = 'T') || decide (c.toUpper = 'Y')) := rfl
      rw [e]
      refine ⟨?_, ?_, ?_⟩
      · rw [Except.ok.injEq, hc]
        constructor
        · exact fun h => Or.inr ⟨c, s, rfl, h⟩
        · rintro (h | ⟨c', s', h, h'⟩)
          · cases h
          · injection h with h
            injection h with h _
            rw [h]; exact h'
      · rw [Except.ok.injEq, Bool.eq_false_iff, Ne, hc]
        constructor
        · exact fun h => Or.inr (Or.inr ⟨c, s, rfl, h⟩)
        · rintro (h | h | ⟨c', s', h, h'⟩)
          · cases h
          · cases h
          · injection h with h
            injection h with h _
            rw [h]; exact h'
      · intro e
        constructor
        · intro h; cases h
        · rintro (⟨h, -⟩ | ⟨⟨z, h⟩ | ⟨q, h⟩, -⟩)
          · injection h with h; cases h
          · cases h
          · cases h

example : toBoolean (.str "yes".toList) = .ok true ∧ toBoolean (.str "1".toList) = .ok false ∧
    toBoolean (.str []) = .error .indexError := by decide

/-! ## C49 -/

/-- **C49** (the part that holds). The normalised name either has at most ten characters and none of `-`,
`_`, `.`; or it is the whole name with every dot replaced by an underscore. It never contains a dot. What is
missing: in the second case there is no bound and underscores and dashes stay (`filename_not_short`). -/
theorem filename_normalised_partial (name : Str) :
    ((normalizeFilename name).length ≤ 10 ∧ ∀ c ∈ normalizeFilename name, c ≠ '-' ∧ c ≠ '_' ∧ c ≠ '.') ∨
    (normalizeFilename name = name.map (fun c => if c = '.' then '_' else c) ∧
      ∀ c ∈ normalizeFilename name, c ≠ '.') := by
  have hf : ∀ b : Str, ∀ c ∈ b.filter (fun x => !(x == '-' || x == '_' || x == '.')),
      c ≠ '-' ∧ c ≠ '_' ∧ c ≠ '.' := by
    intro b c hc
    have := (List.mem_filter.1 hc).2
    simp only [Bool.not_eq_true', Bool.or_eq_false_iff, beq_eq_false_iff_ne] at this
    exact ⟨this.1.1, this.1.2, this.2⟩
  unfold normalizeFilename
  dsimp only
  generalize (if subLongGo 0 (Str.lower (withoutExt name)) = [] then Str.lower (withoutExt name)
      else subLongGo 0 (Str.lower (withoutExt name))) = b
  by_cases hl : (b.filter (fun x => !(x == '-' || x == '_' || x == '.'))).length < 3
  · rw [if_pos hl]
    refine Or.inr ⟨rfl, ?_⟩
    intro c hc
    obtain ⟨x, -, rfl⟩ := List.mem_map.1 hc
    split
    · decide
    · assumption
  · rw [if_neg hl]
    exact Or.inl ⟨List.length_take_le _ _, fun c hc => hf b c (List.mem_of_mem_take hc)⟩

example : normalizeFilename "EUD_Rain-20151225.12.grb".toList = "eudrain12".toList := by decide +kernel

/-- C49 fails when little is left of the name besides the date: the result keeps the date and underscores and
is longer than ten characters. -/
theorem filename_not_short :
    normalizeFilename "20151225_a.grb".toList = "20151225_a_grb".toList := by decide +kernel

/-- C49 fails without bound: names of every length are returned as they are. -/
theorem filename_unbounded (k : Nat) : (normalizeFilename (List.replicate k '_')).length = k := by
  have h1 : withoutExt (List.replicate k '_') = List.replicate k '_' := by
    unfold withoutExt
    have : (List.replicate k '_').reverse.dropWhile (· ≠ '.') = [] := by
      rw [List.reverse_replicate]
      induction k with
      | zero => rfl
      | succ k ih => rw [List.replicate_succ, List.dropWhile_cons, if_pos (by decide)]; exact ih
    rw [this]
  have h2 : Str.lower (List.replicate k '_') = List.replicate k '_' := by
    unfold Str.lower
    rw [List.map_replicate]
    rfl
  have h3 : ∀ k, subLongGo 0 (List.replicate k '_') = List.replicate k '_' := by
    intro k
    induction k with
    | zero => rfl
    | succ k ih =>
      rw [List.replicate_succ, subLongGo, if_neg, ih]
      unfold digitRun
      rw [List.takeWhile_cons, if_neg (by decide)]
      decide
  have h4 : (List.replicate k '_').filter (fun x => !(x == '-' || x == '_' || x == '.')) = [] := by
    rw [List.filter_eq_nil_iff]
    intro x hx
    rw [List.eq_of_mem_replicate hx]; decide
  unfold normalizeFilename
  dsimp only
  rw [h1, h2, h3, ite_self, h4, if_pos (by decide), List.length_map, List.length_replicate]

/-! ## C48 -/

namespace Spec

/-- A word of a command: not empty, no white space, no `=`, no quote. -/
def Word (w : Str) : Prop := w ≠ [] ∧ ∀ c ∈ w, ¬ White c ∧ c ≠ '=' ∧ c ≠ '"'

/-- The value of an option: the last one it was given. -/
def LastValue (given : List (Str × Str)) (o v : Str) : Prop :=
  ∃ pre post, given = pre ++ (o, v) :: post ∧ ∀ q ∈ post, q.1 ≠ o

end Spec

theorem lastValue_iff_ofPairs (l : List (Str × Str)) (o v : Str) :
    Spec.LastValue l o v ↔ Dict.get? (Dict.ofPairs l) o = some v := by
  rw [Dict.get?_ofPairs]
  unfold Dict.lastPair
  induction l using List.reverseRecOn with
  | nil =>
    constructor
    · rintro ⟨pre, post, h, -⟩; simp at h
    · intro h; simp at h
  | append_singleton l q ih =>
    rw [List.filter_append]
    by_cases hq : q.1 = o
    · have e : List.filter (fun p : Str × Str => decide (p.1 = o)) [q] = [q] := by simp [hq]
      rw [e, List.getLast?_concat]
      constructor
      · rintro ⟨pre, post, h, hn⟩
        rcases List.eq_nil_or_concat post with hp | ⟨p0, x, hp⟩
        · subst hp
          obtain ⟨-, h2⟩ := List.append_inj' h rfl
          injection h2 with h2 _
          rw [h2]; rfl
        · rw [List.concat_eq_append] at hp
          subst hp
          have h' : l ++ [q] = (pre ++ (o, v) :: p0) ++ [x] := by rw [h]; simp
          obtain ⟨-, h2⟩ := List.append_inj' h' rfl
          injection h2 with h2 _
          subst h2
          exact absurd hq (hn q (by simp))
      · intro h
        simp only [Option.map_some, Option.some.injEq] at h
        refine ⟨l, [], ?_, by simp⟩
        rw [← hq, ← h]
    · have e : List.filter (fun p : Str × Str => decide (p.1 = o)) [q] = [] := by simp [hq]
      rw [e, List.append_nil, ← ih]
      constructor
      · rintro ⟨pre, post, h, hn⟩
        rcases List.eq_nil_or_concat post with hp | ⟨p0, x, hp⟩
        · subst hp
          obtain ⟨-, h2⟩ := List.append_inj' h rfl
          injection h2 with h2 _
          rw [h2] at hq
          exact absurd rfl hq
        · rw [List.concat_eq_append] at hp
          subst hp
          have h' : l ++ [q] = (pre ++ (o, v) :: p0) ++ [x] := by rw [h]; simp
          obtain ⟨h1, -⟩ := List.append_inj' h' rfl
          exact ⟨pre, p0, h1, fun y hy => hn y (by simp [hy])⟩
      · rintro ⟨pre, post, h, hn⟩
        refine ⟨pre, post ++ [q], by rw [h]; simp, ?_⟩
        intro y hy
        rcases List.mem_append.1 hy with hy | hy
        · exact hn y hy
        · rw [List.mem_singleton.1 hy]; exact hq

namespace Str

theorem splitOn_append_gen (c : Char) (a b : Str) :
    splitOn c (a ++ c :: b) = splitOn c a ++ splitOn c b := by
  induction a with
  | nil =>
    rw [List.nil_append]
    conv_lhs => rw [splitOn, if_pos rfl]
    rfl
  | cons x a ih =>
    rw [List.cons_append, splitOn, splitOn, ih]
    by_cases hx : x = c
    · rw [if_pos hx, if_pos hx]; rfl
    · rw [if_neg hx, if_neg hx]
      cases h : splitOn c a with
      | nil => exact absurd h (splitOn_ne_nil c a)
      | cons w ws => rfl

/-- the words of a text: its blank-separated, non-empty pieces. -/
def words (s : Str) : List Str := (splitOn ' ' s).filter fun w => decide (w ≠ [])

theorem words_append (a b : Str) : words (a ++ ' ' :: b) = words a ++ words b := by
  unfold words
  rw [splitOn_append_gen, List.filter_append]

theorem words_nil : words [] = [] := by decide

theorem words_of_word {w : Str} (h0 : w ≠ []) (h : ' ' ∉ w) : words w = [w] := by
  unfold words
  rw [splitOn_of_not_mem h]
  simp [h0]

theorem words_blank_left {a s : Str} (h : ∀ c ∈ a, c = ' ') : words (a ++ s) = words s := by
  induction a with
  | nil => rfl
  | cons x a ih =>
    have hx := h x (by simp)
    subst hx
    have := words_append [] (a ++ s)
    rw [List.nil_append] at this
    rw [List.cons_append, this, words_nil, List.nil_append]
    exact ih fun c hc => h c (by simp [hc])

theorem words_blank_right {b s : Str} (h : ∀ c ∈ b, c = ' ') : words (s ++ b) = words s := by
  cases b with
  | nil => rw [List.append_nil]
  | cons x b =>
    have hx := h x (by simp)
    subst hx
    rw [words_append]
    have : words b = [] := by
      have := words_blank_left (a := b) (s := []) (fun c hc => h c (by simp [hc]))
      rw [List.append_nil] at this
      rw [this, words_nil]
    rw [this, List.append_nil]

theorem takeWhile_all {p : Char → Bool} (s : Str) : ∀ c ∈ s.takeWhile p, p c = true := by
  induction s with
  | nil => intro c hc; cases hc
  | cons x s ih =>
    intro c hc
    rw [List.takeWhile_cons] at hc
    cases hx : p x with
    | false => rw [hx] at hc; cases hc
    | true =>
      rw [hx] at hc
      rcases List.mem_cons.1 hc with h | h
      · rw [h]; exact hx
      · exact ih c h

theorem stripBy_decomp (p : Char → Bool) (s : Str) :
    ∃ a b, s = a ++ stripBy p s ++ b ∧ (∀ c ∈ a, p c = true) ∧ (∀ c ∈ b, p c = true) := by
  refine ⟨s.takeWhile p, ((s.dropWhile p).reverse.takeWhile p).reverse, ?_, takeWhile_all s, ?_⟩
  · unfold stripBy
    rw [List.append_assoc, ← List.reverse_append, List.takeWhile_append_dropWhile, List.reverse_reverse,
      List.takeWhile_append_dropWhile]
  · intro c hc
    exact takeWhile_all _ c (List.mem_reverse.1 hc)

theorem words_stripBy {s : Str} (h : ∀ c ∈ s, Spec.White c → c = ' ') :
    words (stripBy isSpace s) = words s := by
  obtain ⟨a, b, hs, ha, hb⟩ := stripBy_decomp isSpace s
  have ha' : ∀ c ∈ a, c = ' ' := fun c hc =>
    h c (by rw [hs]; simp [hc]) ((isSpace_iff c).1 (ha c hc))
  have hb' : ∀ c ∈ b, c = ' ' := fun c hc =>
    h c (by rw [hs]; simp [hc]) ((isSpace_iff c).1 (hb c hc))
  conv_rhs => rw [hs]
  rw [words_blank_right hb', words_blank_left ha']

theorem stripBy_mem {p : Char → Bool} {s : Str} {c : Char} (h : c ∈ stripBy p s) : c ∈ s := by
  obtain ⟨a, b, hs, -, -⟩ := stripBy_decomp p s
  rw [hs]; simp [h]

theorem csv_plain (s : Str) (hq : '"' ∉ s) (acc : Str) :
    csvGo (.plain acc) s = (match splitOn ' ' s with
      | [] => [acc.reverse]
      | w :: ws => (acc.reverse ++ w) :: ws) ∧ csvGo .start s = splitOn ' ' s := by
  induction s generalizing acc with
  | nil => exact ⟨by simp [csvGo, splitOn], rfl⟩
  | cons c s ih =>
    have hq' : '"' ∉ s := fun h => hq (by simp [h])
    have hc : c ≠ '"' := fun h => hq (by simp [h])
    by_cases hb : c = ' '
    · subst hb
      refine ⟨?_, ?_⟩
      · rw [csvGo, if_pos rfl, splitOn, if_pos rfl, (ih hq' []).2]
        simp
      · rw [csvGo, if_pos rfl, splitOn, if_pos rfl, (ih hq' []).2]
    · cases hs : splitOn ' ' s with
      | nil => exact absurd hs (splitOn_ne_nil _ _)
      | cons w ws =>
        refine ⟨?_, ?_⟩
        · rw [csvGo, if_neg hb, splitOn, if_neg hb, (ih hq' (c :: acc)).1, hs]
          simp
        · rw [csvGo, if_neg hb, if_neg hc, splitOn, if_neg hb, (ih hq' [c]).1, hs]
          simp

theorem splitArgs_word {w : Str} (h : ∀ c ∈ w, c ≠ ' ' ∧ c ≠ '=') : splitArgs w = [w] := by
  induction w with
  | nil => rfl
  | cons x w ih =>
    have hx := h x (by simp)
    rw [splitArgs, if_neg (by rintro (h | h); exacts [hx.1 h, hx.2 h]), ih fun c hc => h c (by simp [hc])]

theorem splitArgs_append {w : Str} (h : ∀ c ∈ w, c ≠ ' ' ∧ c ≠ '=') (s : Str) :
    splitArgs (w ++ ' ' :: s) = w :: splitArgs s := by
  induction w with
  | nil =>
    rw [List.nil_append]
    conv_lhs => rw [splitArgs, if_pos (Or.inl rfl)]
  | cons x w ih =>
    have hx := h x (by simp)
    rw [List.cons_append, splitArgs, if_neg (by rintro (h | h); exacts [hx.1 h, hx.2 h]),
      ih fun c hc => h c (by simp [hc])]

theorem splitArgs_joinBlank {ws : List Str} (h0 : ws ≠ []) (h : ∀ w ∈ ws, ∀ c ∈ w, c ≠ ' ' ∧ c ≠ '=') :
    splitArgs (joinBlank ws) = ws := by
  induction ws with
  | nil => exact absurd rfl h0
  | cons w ws ih =>
    cases ws with
    | nil => exact splitArgs_word (h w (by simp))
    | cons w' ws =>
      rw [joinBlank, splitArgs_append (h w (by simp)), ih (by simp) fun x hx => h x (by simp [hx])]
      simp

theorem joinBlank_snoc {ws : List Str} (h0 : ws ≠ []) (w : Str) :
    joinBlank ws ++ ' ' :: w = joinBlank (ws ++ [w]) := by
  induction ws with
  | nil => exact absurd rfl h0
  | cons x ws ih =>
    cases ws with
    | nil => rfl
    | cons y ws =>
      rw [joinBlank, List.append_assoc, List.cons_append, ih (by simp)]
      · rfl
      · simp

end Str

theorem pairUp_flat (pairs : List (Str × Str)) (last : List Str) (h : last.length < 2) :
    pairUp (pairs.flatMap (fun p => [p.1, p.2]) ++ last) = pairs := by
  induction pairs with
  | nil =>
    match last, h with
    | [], _ => rfl
    | [a], _ => rfl
  | cons p pairs ih =>
    rw [List.flatMap_cons, List.append_assoc]
    change pairUp (p.1 :: p.2 :: (_ ++ last)) = _
    rw [pairUp, ih]

/-- A text of words that begins with `-` is not changed by stripping. -/
theorem trim_joinBlank {ws : List Str} (h : ∀ w ∈ ws, Spec.Word w) :
    Spec.Trim (Str.joinBlank ws) (Str.joinBlank ws) := by
  refine ⟨[], [], by simp, by simp, by simp, ?_, ?_⟩
  · cases ws with
    | nil => intro c hc; cases hc
    | cons w ws =>
      obtain ⟨h0, h1⟩ := h w (by simp)
      cases w with
      | nil => exact absurd rfl h0
      | cons x w =>
        intro c hc
        have : c = x := by
          cases ws with
          | nil => simpa [Str.joinBlank] using hc.symm
          | cons y ws => simpa [Str.joinBlank] using hc.symm
        rw [this]
        exact (h1 x (by simp)).1
  · rcases List.eq_nil_or_concat ws with hn | ⟨ws0, w, hw⟩
    · rw [hn]; intro c hc; cases hc
    · rw [List.concat_eq_append] at hw
      subst hw
      obtain ⟨h0, h1⟩ := h w (by simp)
      rcases List.eq_nil_or_concat w with hn | ⟨w0, x, hx⟩
      · exact absurd hn h0
      · rw [List.concat_eq_append] at hx
        intro c hc
        have : c = x := by
          by_cases hws : ws0 = []
          · subst hws
            rw [List.nil_append, hx] at hc
            change (w0 ++ [x]).getLast? = some c at hc
            rw [List.getLast?_concat] at hc
            injection hc with hc
            exact hc.symm
          · rw [← Str.joinBlank_snoc hws, hx, ← List.cons_append, ← List.append_assoc,
              List.getLast?_concat] at hc
            injection hc with hc
            exact hc.symm
        rw [this]
        exact (h1 x (by rw [hx]; simp)).1


namespace Spec

/-- `filled` is `text` with every `{name}` replaced by the value `name` has in `params`; neither the rest of
the text nor the names and values contain braces. -/
inductive Filled (params : List (Str × Str)) : Str → Str → Prop
  | nil : Filled params [] []
  | char {c : Char} {t f : Str} : c ≠ '{' → c ≠ '}' → Filled params t f → Filled params (c :: t) (c :: f)
  | var {name value t f : Str} : (name, value) ∈ params → Filled params t f →
      Filled params ('{' :: (name ++ '}' :: t)) (value ++ f)

/-- No braces. -/
def NoBrace (s : Str) : Prop := '{' ∉ s ∧ '}' ∉ s

end Spec

namespace Str

theorem replaceGo_skip (old new : Str) : ∀ (a s : Str), replaceGo old new a.length (a ++ s) = replaceGo old new 0 s
  | [], s => rfl
  | c :: a, s => by
    rw [List.length_cons, List.cons_append, replaceGo]
    exact replaceGo_skip old new a s

theorem isPrefixOf_append_self (a s : Str) : List.isPrefixOf a (a ++ s) = true := by
  rw [List.isPrefixOf_iff_prefix]; exact List.prefix_append a s

theorem replaceGo_hit {old new : Str} (h0 : old ≠ []) (s : Str) :
    replaceGo old new 0 (old ++ s) = new ++ replaceGo old new 0 s := by
  cases old with
  | nil => exact absurd rfl h0
  | cons c o =>
    rw [List.cons_append, replaceGo, ← List.cons_append, if_pos (isPrefixOf_append_self _ _)]
    rw [List.length_cons, Nat.add_sub_cancel, replaceGo_skip]

theorem replaceGo_plain {n new : Str} {a : Str} (ha : '{' ∉ a) (s : Str) :
    replaceGo ('{' :: n) new 0 (a ++ s) = a ++ replaceGo ('{' :: n) new 0 s := by
  induction a with
  | nil => rfl
  | cons c a ih =>
    have hc : '{' ≠ c := fun h => ha (List.mem_cons.2 (Or.inl h))
    rw [List.cons_append, replaceGo, if_neg, ih fun h => ha (by simp [h])]
    · rfl
    · rw [List.isPrefixOf_cons_cons]
      simp [hc]

/-- another placeholder is left alone. -/
theorem replaceGo_other {n m new : Str} (hn : '}' ∉ n) (hm : Spec.NoBrace m) (h : n ≠ m) (s : Str) :
    replaceGo ('{' :: (n ++ ['}'])) new 0 ('{' :: (m ++ '}' :: s)) =
      '{' :: (m ++ '}' :: replaceGo ('{' :: (n ++ ['}'])) new 0 s) := by
  have hp : ∀ n m : Str, '}' ∉ n → '}' ∉ m → n ≠ m →
      List.isPrefixOf (n ++ ['}']) (m ++ '}' :: s) = false := by
    intro n
    induction n with
    | nil =>
      intro m _ hm h
      cases m with
      | nil => exact absurd rfl h
      | cons c m =>
        have : '}' ≠ c := fun e => hm (List.mem_cons.2 (Or.inl e))
        rw [List.nil_append, List.cons_append, List.isPrefixOf_cons_cons]
        simp [this]
    | cons d n ih =>
      intro m hn hm h
      cases m with
      | nil =>
        have : d ≠ '}' := fun e => hn (by simp [e])
        rw [List.nil_append, List.cons_append, List.isPrefixOf_cons_cons]
        simp [this]
      | cons c m =>
        rw [List.cons_append, List.cons_append, List.isPrefixOf_cons_cons]
        by_cases hd : d = c
        · subst hd
          rw [ih m (fun e => hn (by simp [e])) (fun e => hm (by simp [e])) (fun e => h (by rw [e]))]
          simp
        · simp [hd]
  rw [replaceGo, if_neg]
  · have e : m ++ '}' :: s = (m ++ ['}']) ++ s := by simp
    rw [e, replaceGo_plain]
    · simp
    · intro hx
      rcases List.mem_append.1 hx with hx | hx
      · exact hm.1 hx
      · simp at hx
  · rw [List.isPrefixOf_cons_cons, hp n m hn hm.2 h]
    simp

end Str

/-- The replacement of all the parameters, one after the other. -/
theorem filled_replace {params : List (Str × Str)} (hnd : (params.map (·.1)).Nodup)
    (hb : ∀ p ∈ params, Spec.NoBrace p.1 ∧ Spec.NoBrace p.2) {t f : Str} (h : Spec.Filled params t f) :
    params.foldl (fun t p => Str.replaceAll ('{' :: (p.1 ++ ['}'])) p.2 t) t = f := by
  induction params generalizing t f with
  | nil =>
    rw [List.foldl_nil]
    induction h with
    | nil => rfl
    | char _ _ _ ih => rw [ih]
    | var h => cases h
  | cons p params ih =>
    rw [List.foldl_cons]
    apply ih (List.nodup_cons.1 (by simpa using hnd)).2 (fun q hq => hb q (by simp [hq]))
    have hp := hb p (by simp)
    have hnp : p.1 ∉ params.map (·.1) := (List.nodup_cons.1 (by simpa using hnd)).1
    unfold Str.replaceAll
    induction h with
    | nil => exact .nil
    | @char c t f h1 h2 _ ih =>
      have e := Str.replaceGo_plain (n := p.1 ++ ['}']) (new := p.2) (a := [c]) (by simp [Ne.symm h1]) t
      rw [List.singleton_append, List.singleton_append] at e
      rw [e]
      exact .char h1 h2 ih
    | @var name value t f hm _ ih =>
      have hmb := hb _ hm
      by_cases hn : p.1 = name
      · have hv : p.2 = value := by
          rcases List.mem_cons.1 hm with h | h
          · rw [← h]
          · exact absurd (List.mem_map.2 ⟨_, h, hn.symm⟩) hnp
        subst hn
        have e : '{' :: (p.1 ++ '}' :: t) = ('{' :: (p.1 ++ ['}'])) ++ t := by simp
        rw [e, Str.replaceGo_hit (by simp), hv]
        have hc : ∀ (v g g' : Str), Spec.NoBrace v → Spec.Filled params g g' →
            Spec.Filled params (v ++ g) (v ++ g') := by
          intro v
          induction v with
          | nil => exact fun _ _ _ h => h
          | cons c v ihv =>
            intro g g' hv hg
            exact .char (fun e => hv.1 (by simp [e])) (fun e => hv.2 (by simp [e]))
              (ihv _ _ ⟨fun e => hv.1 (by simp [e]), fun e => hv.2 (by simp [e])⟩ hg)
        rw [hv] at ih
        exact hc value _ _ hmb.2 ih
      · rw [Str.replaceGo_other hp.1.2 hmb.1 hn]
        refine .var ?_ ih
        rcases List.mem_cons.1 hm with h | h
        · exact absurd (by rw [← h]) hn
        · exact h

/-- What the options dictionary holds after all settings. -/
theorem get?_default {given : List (Str × Str)} {k v : Str} (o : Str) :
    Dict.get? (if k ∈ Dict.keys (Dict.ofPairs given) then Dict.ofPairs given
      else Dict.set (Dict.ofPairs given) k v) o = Dict.get? (Dict.ofPairs ((k, v) :: given)) o := by
  have e : ∀ l : List (Str × Str), Dict.ofPairs ((k, v) :: l) = l.foldl (fun d p => Dict.set d p.1 p.2) [(k, v)] :=
    fun l => rfl
  rw [e, Dict.get?_foldl_set, Dict.get?_cons, Dict.get?_nil]
  have e2 : Dict.get? (Dict.ofPairs given) o = Dict.lastPair given o := Dict.get?_ofPairs given o
  by_cases hk : k ∈ Dict.keys (Dict.ofPairs given)
  · rw [if_pos hk, e2]
    cases hl : Dict.lastPair given o with
    | some w => rfl
    | none =>
      rw [hl, Dict.get?_eq_none_iff] at e2
      have : k ≠ o := fun h => e2 (h ▸ hk)
      rw [if_neg this]; rfl
  · rw [if_neg hk, Dict.get?_set, e2]
    by_cases ho : k = o
    · subst ho
      rw [if_pos rfl, if_pos rfl]
      rw [← Dict.get?_eq_none_iff, e2] at hk
      rw [hk]; rfl
    · rw [if_neg ho, if_neg ho]
      cases Dict.lastPair given o <;> rfl

/-- the words of the text of an options dictionary. -/
theorem words_options (l : List (Str × Str)) (h : ∀ p ∈ l, Spec.Word p.1 ∧ (p.2 = [] ∨ Spec.Word p.2)) :
    Str.words (l.flatMap fun p => p.1 ++ ' ' :: (p.2 ++ [' '])) =
      l.flatMap fun p => p.1 :: (if p.2 = [] then [] else [p.2]) := by
  have hb : ∀ w, Spec.Word w → ' ' ∉ w := fun w hw hm => (hw.2 _ hm).1 (by unfold Spec.White; decide)
  induction l with
  | nil => exact Str.words_nil
  | cons p l ih =>
    have hp := h p (by simp)
    rw [List.flatMap_cons, List.flatMap_cons]
    have e : (p.1 ++ ' ' :: (p.2 ++ [' '])) ++ (l.flatMap fun p => p.1 ++ ' ' :: (p.2 ++ [' '])) =
        p.1 ++ ' ' :: (p.2 ++ ' ' :: (l.flatMap fun p => p.1 ++ ' ' :: (p.2 ++ [' ']))) := by simp
    rw [e, Str.words_append, Str.words_append, Str.words_of_word hp.1.1 (hb _ hp.1),
      ih fun q hq => h q (by simp [hq])]
    rcases hp.2 with h0 | h1
    · rw [h0, if_pos rfl, Str.words_nil]; rfl
    · rw [if_neg h1.1, Str.words_of_word h1.1 (hb _ h1)]; rfl

theorem options_chars (l : List (Str × Str)) (h : ∀ p ∈ l, Spec.Word p.1 ∧ (p.2 = [] ∨ Spec.Word p.2)) :
    ∀ c ∈ l.flatMap (fun p => p.1 ++ ' ' :: (p.2 ++ [' '])), (Spec.White c → c = ' ') ∧ c ≠ '"' := by
  intro c hc
  obtain ⟨p, hp, hc⟩ := List.mem_flatMap.1 hc
  have hw := h p hp
  have hq : ' ' ≠ '"' := by decide
  rcases List.mem_append.1 hc with hc | hc
  · exact ⟨fun x => absurd x (hw.1.2 c hc).1, (hw.1.2 c hc).2.2⟩
  · rcases List.mem_cons.1 hc with hc | hc
    · exact ⟨fun _ => hc, hc ▸ hq⟩
    · rcases List.mem_append.1 hc with hc | hc
      · rcases hw.2 with h0 | h1
        · rw [h0] at hc; cases hc
        · exact ⟨fun x => absurd x (h1.2 c hc).1, (h1.2 c hc).2.2⟩
      · rw [List.mem_singleton] at hc
        exact ⟨fun _ => hc, hc ▸ hq⟩

/-- The argument vector of an options dictionary. -/
theorem commandArgv_options {d : Dict Str Str}
    (h : ∀ p ∈ d, Spec.Word p.1 ∧ (p.2 = [] ∨ Spec.Word p.2)) :
    ∃ order : List (Str × Str), order.Pairwise (fun a b => a.1 ≤ b.1) ∧ order.Perm d ∧
      commandArgv d = .ok (order.flatMap fun p => p.1 :: (if p.2 = [] then [] else [p.2])) := by
  have hperm : (d.insertionSort fun a b => a.1 ≤ b.1).Perm d := List.perm_insertionSort _ _
  refine ⟨d.insertionSort fun a b => a.1 ≤ b.1, ?_, hperm, ?_⟩
  · haveI : Std.Total (fun a b : Str × Str => a.1 ≤ b.1) := ⟨fun a b => List.le_total _ _⟩
    haveI : IsTrans (Str × Str) (fun a b => a.1 ≤ b.1) := ⟨fun a b c h1 h2 => List.le_trans h1 h2⟩
    exact List.pairwise_insertionSort (fun a b : Str × Str => a.1 ≤ b.1) d
  · unfold commandArgv commandStr
    dsimp only
    generalize (d.insertionSort fun a b => a.1 ≤ b.1) = l at hperm
    have hl : ∀ p ∈ l, Spec.Word p.1 ∧ (p.2 = [] ∨ Spec.Word p.2) := fun p hp => h p (hperm.mem_iff.1 hp)
    have hch := options_chars l hl
    have e0 : "pyg2p ".toList = "pyg2p".toList ++ [' '] := by decide
    have ew : Str.words "pyg2p".toList = ["pyg2p".toList] := by decide
    have en : "pyg2p".toList ≠ [] := by decide
    have eq : '"' ∉ "pyg2p".toList := by decide
    rw [e0]
    generalize "pyg2p".toList = p at ew en eq
    rw [List.append_assoc, List.singleton_append]
    unfold toArgv
    rw [if_neg (by simp [en])]
    have hq : '"' ∉ p ++ ' ' :: Str.stripBy Str.isSpace (l.flatMap fun p => p.1 ++ ' ' :: (p.2 ++ [' '])) := by
      intro hm
      rcases List.mem_append.1 hm with hm | hm
      · exact eq hm
      · rcases List.mem_cons.1 hm with hm | hm
        · exact absurd hm (by decide)
        · exact (hch _ (Str.stripBy_mem hm)).2 rfl
    rw [(Str.csv_plain _ hq []).2]
    have := Str.words_append p (Str.stripBy Str.isSpace (l.flatMap fun p => p.1 ++ ' ' :: (p.2 ++ [' '])))
    rw [Str.words_stripBy fun c hc => (hch c hc).1, words_options l hl, ew] at this
    unfold Str.words at this
    rw [this]
    rfl

/-- The dictionary of a command given as text: the filled template, read as pairs of words. -/
theorem commandInit_pairs {template : Str} {params pairs : List (Str × Str)}
    (hnd : (params.map (·.1)).Nodup) (hb : ∀ p ∈ params, Spec.NoBrace p.1 ∧ Spec.NoBrace p.2)
    (hw : ∀ p ∈ pairs, Spec.Word p.1 ∧ Spec.Word p.2)
    (ht : Spec.Trim template template) (hdash : template = [] ∨ template.head? = some '-')
    (hf : Spec.Filled params template (Str.joinBlank (pairs.flatMap fun p => [p.1, p.2])))
    {text : Str} (htext : text = template ∨ text = "pyg2p ".toList ++ template) :
    commandInit (some text) params = .ok (if "-l".toList ∈ Dict.keys (Dict.ofPairs pairs) then Dict.ofPairs pairs
      else Dict.set (Dict.ofPairs pairs) "-l".toList "ERROR".toList) := by
  have hstrip : Str.stripBy Str.isSpace (text.dropWhile fun c => decide (c ∈ "pyg2p".toList)) = template := by
    have e1 : (' ' :: template) = [' '] ++ template ++ [] := by simp
    have hd : ∀ t : Str, (t = [] ∨ t.head? = some '-') →
        t.dropWhile (fun c => decide (c ∈ "pyg2p".toList)) = t := by
      intro t h
      cases t with
      | nil => rfl
      | cons c t =>
        rcases h with h | h
        · cases h
        · injection h with h
          subst h
          rw [List.dropWhile_cons, if_neg (by decide)]
    rcases htext with h | h
    · rw [h, hd _ hdash, Str.stripBy_trim ht]
    · have e : "pyg2p ".toList = ['p', 'y', 'g', '2', 'p', ' '] := by decide
      have e2 : (['p', 'y', 'g', '2', 'p', ' '] ++ template).dropWhile (fun c => decide (c ∈ "pyg2p".toList)) =
          ' ' :: template := by
        have h1 : ∀ (c : Char) (t : Str), c ∈ "pyg2p".toList →
            (c :: t).dropWhile (fun c => decide (c ∈ "pyg2p".toList)) =
              t.dropWhile (fun c => decide (c ∈ "pyg2p".toList)) := by
          intro c t hc
          rw [List.dropWhile_cons, if_pos (by rw [decide_eq_true_eq]; exact hc)]
        rw [List.cons_append, h1 _ _ (by decide), List.cons_append, h1 _ _ (by decide), List.cons_append,
          h1 _ _ (by decide), List.cons_append, h1 _ _ (by decide), List.cons_append, h1 _ _ (by decide),
          List.cons_append, List.nil_append, List.dropWhile_cons, if_neg (by decide)]
      rw [h, e, e2]
      apply Str.stripBy_trim
      obtain ⟨a, b, h1, h2, h3, h4, h5⟩ := ht
      refine ⟨' ' :: a, b, by rw [List.cons_append, List.cons_append, ← h1], ?_, h3, h4, h5⟩
      intro c hc
      rcases List.mem_cons.1 hc with hc | hc
      · rw [hc]; unfold Spec.White; decide
      · exact h2 c hc
  unfold commandInit
  dsimp only
  rw [hstrip, filled_replace hnd hb hf]
  have hws : ∀ w ∈ pairs.flatMap (fun p => [p.1, p.2]), Spec.Word w := by
    intro w hw'
    obtain ⟨p, hp, hm⟩ := List.mem_flatMap.1 hw'
    rcases List.mem_cons.1 hm with h | h
    · rw [h]; exact (hw p hp).1
    · rw [List.mem_singleton.1 h]; exact (hw p hp).2
  have hd : (if Str.joinBlank (pairs.flatMap fun p => [p.1, p.2]) = [] then []
      else toArgdict (Str.joinBlank (pairs.flatMap fun p => [p.1, p.2]) ++ " -A".toList)) =
      Dict.ofPairs pairs := by
    cases pairs with
    | nil => rfl
    | cons p ps =>
      have hne : (p :: ps).flatMap (fun p => [p.1, p.2]) ≠ [] := by simp
      have hA : Spec.Word "-A".toList := by
        refine ⟨by decide, ?_⟩
        intro c hc
        unfold Spec.White
        have : c = '-' ∨ c = 'A' := by simpa using hc
        rcases this with h | h <;> rw [h] <;> decide
      have eA : " -A".toList = ' ' :: "-A".toList := by decide
      rw [eA]
      generalize "-A".toList = dA at hA
      have hj : Str.joinBlank ((p :: ps).flatMap fun p => [p.1, p.2]) ≠ [] := by
        intro h
        have := (hws p.1 (by simp)).1
        change Str.joinBlank (p.1 :: p.2 :: _) = [] at h
        rw [Str.joinBlank] at h
        · simp at h
        · simp
      rw [if_neg hj, Str.joinBlank_snoc hne]
      unfold toArgdict
      have hws' : ∀ w ∈ (p :: ps).flatMap (fun p => [p.1, p.2]) ++ [dA], Spec.Word w := by
        intro w h
        rcases List.mem_append.1 h with h | h
        · exact hws w h
        · rw [List.mem_singleton.1 h]; exact hA
      rw [Str.stripBy_trim (trim_joinBlank hws'), Str.splitArgs_joinBlank (by simp), pairUp_flat _ _ (by simp)]
      intro w hw' c hc
      have := (hws' w hw').2 c hc
      refine ⟨fun h => this.1 ?_, this.2.1⟩
      rw [h]; unfold Spec.White; decide
  rw [hd]

/-- **C48** (the part that holds). A command whose text is a sequence of option/value pairs — the options
start with a dash, no value is empty or contains white space, `=` or a quote — optionally after the name of the
program, with placeholders `{name}` for given parameters, and then changed by any sequence of settings (a flag
is set to the empty value), runs the program with exactly these options, each with the value it was given
last, in alphabetical order; the log level is `ERROR` unless given. What is missing: `Command()` without text,
flags within the text, and values with `=` or blanks (`command_without_text`, `command_flag_misaligned`,
`command_value_split`). -/
theorem command_roundtrip_partial {template : Str} {params pairs sets : List (Str × Str)}
    (hnd : (params.map (·.1)).Nodup) (hb : ∀ p ∈ params, Spec.NoBrace p.1 ∧ Spec.NoBrace p.2)
    (hw : ∀ p ∈ pairs, Spec.Word p.1 ∧ Spec.Word p.2)
    (ht : Spec.Trim template template) (hdash : template = [] ∨ template.head? = some '-')
    (hf : Spec.Filled params template (Str.joinBlank (pairs.flatMap fun p => [p.1, p.2])))
    {text : Str} (htext : text = template ∨ text = "pyg2p ".toList ++ template)
    (hsets : ∀ p ∈ sets, Spec.Word p.1 ∧ (p.2 = [] ∨ Spec.Word p.2)) :
    ∃ (d : Dict Str Str) (order : List (Str × Str)), commandInit (some text) params = .ok d ∧
      order.Pairwise (fun a b => a.1 ≤ b.1) ∧ (order.map (·.1)).Nodup ∧
      (∀ o v, (o, v) ∈ order ↔ Spec.LastValue (("-l".toList, "ERROR".toList) :: pairs ++ sets) o v) ∧
      commandArgv (sets.foldl (fun d p => commandSet d p.1 p.2) d) =
        .ok (order.flatMap fun p => p.1 :: (if p.2 = [] then [] else [p.2])) := by
  have hinit := commandInit_pairs hnd hb hw ht hdash hf htext
  have hlw : Spec.Word "-l".toList := by
    refine ⟨by decide, ?_⟩
    intro c hc
    unfold Spec.White
    have : c = '-' ∨ c = 'l' := by simpa using hc
    rcases this with h | h <;> rw [h] <;> decide
  have hew : Spec.Word "ERROR".toList := by
    refine ⟨by decide, ?_⟩
    intro c hc
    unfold Spec.White
    have : c = 'E' ∨ c = 'R' ∨ c = 'R' ∨ c = 'O' ∨ c = 'R' := by simpa using hc
    rcases this with h | h | h | h | h <;> rw [h] <;> decide
  generalize "-l".toList = kl at *
  generalize "ERROR".toList = ve at *
  set d0 : Dict Str Str := if kl ∈ Dict.keys (Dict.ofPairs pairs) then Dict.ofPairs pairs
      else Dict.set (Dict.ofPairs pairs) kl ve with hd0
  have hn0 : (Dict.keys d0).Nodup := by
    rw [hd0]
    split
    · exact Dict.nodup_keys_ofPairs _
    · exact Dict.nodup_keys_set (Dict.nodup_keys_ofPairs _) _ _
  set d1 := sets.foldl (fun d p => commandSet d p.1 p.2) d0 with hd1
  have hn1 : (Dict.keys d1).Nodup := Dict.nodup_keys_update_aux sets d0 hn0
  have hget : ∀ o, Dict.get? d1 o = Dict.get? (Dict.ofPairs ((kl, ve) :: pairs ++ sets)) o := by
    intro o
    have e1 : d1 = sets.foldl (fun d p => Dict.set d p.1 p.2) d0 := rfl
    have e2 : Dict.ofPairs ((kl, ve) :: pairs ++ sets) =
        sets.foldl (fun d p => Dict.set d p.1 p.2) (Dict.ofPairs ((kl, ve) :: pairs)) := by
      unfold Dict.ofPairs
      rw [List.foldl_append]
    rw [e1, e2, Dict.get?_foldl_set, Dict.get?_foldl_set, hd0, get?_default]
  have hmem : ∀ o v, (o, v) ∈ d1 ↔ Spec.LastValue ((kl, ve) :: pairs ++ sets) o v := by
    intro o v
    rw [lastValue_iff_ofPairs, ← hget]
    exact ⟨Dict.get?_of_mem hn1, Dict.mem_of_get?⟩
  have hwd : ∀ p ∈ d1, Spec.Word p.1 ∧ (p.2 = [] ∨ Spec.Word p.2) := by
    rintro ⟨o, v⟩ hp
    obtain ⟨pre, post, h, -⟩ := (hmem o v).1 hp
    have : (o, v) ∈ (kl, ve) :: pairs ++ sets := by rw [h]; simp
    rcases List.mem_append.1 this with h | h
    · rcases List.mem_cons.1 h with h | h
      · rw [h]; exact ⟨hlw, Or.inr hew⟩
      · exact ⟨(hw _ h).1, Or.inr (hw _ h).2⟩
    · exact hsets _ h
  obtain ⟨order, h1, h2, h3⟩ := commandArgv_options hwd
  refine ⟨d0, order, hinit, h1, (h2.map _).nodup_iff.2 hn1, ?_, h3⟩
  intro o v
  rw [h2.mem_iff, hmem]

example : (do
    let d ← commandInit (some "pyg2p -i {f} -c cmd.json".toList) [("f".toList, "rain.grb".toList)]
    commandArgv (commandSet (commandSet d "-e".toList "24".toList) "-B".toList [])) =
    .ok (["-B", "-c", "cmd.json", "-e", "24", "-i", "rain.grb", "-l", "ERROR"].map String.toList) := by
  decide +kernel

example : Spec.Filled [("f".toList, "a".toList)] "-i {f}".toList "-i a".toList :=
  .char (by decide) (by decide) (.char (by decide) (by decide) (.char (by decide) (by decide)
    (.var (name := ['f']) (value := ['a']) (by decide) .nil)))

/-- C48 fails for the documented `Command()`: there is no text to strip. -/
theorem command_without_text (params : List (Str × Str)) : commandInit none params = .error .attributeError := rfl

/-- C48 fails for a flag within the text: it takes the next option as its value, and the file names become
options. -/
theorem command_flag_misaligned :
    commandInit (some "-c x -B -i y -o z".toList) [] = .ok ([("-c", "x"), ("-B", "-i"), ("y", "-o"),
      ("z", "-A"), ("-l", "ERROR")].map fun p => (p.1.toList, p.2.toList)) := by
  decide +kernel

/-- C48 fails for a value with an equals sign: it is cut in two. -/
theorem command_value_split :
    ∃ d argv, commandInit (some "-c x=1 -i y".toList) [] = .ok d ∧ commandArgv d = .ok argv ∧
      "x=1".toList ∉ argv := by
  refine ⟨_, _, rfl, rfl, ?_⟩
  decide +kernel

end PyG2P
