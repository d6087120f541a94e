import Verif.Props.Strings

/-! # C102 (quoted items of a command), C103 (dates in file names) -/

namespace PyG2P
open Spec

namespace Spec

/-- An item of a command as a user writes it: as it is, or between quotes with its own quotes doubled. -/
def written (quoted : Bool) (w : Str) : Str :=
  if quoted then '"' :: (w.flatMap fun c => if c = '"' then ['"', '"'] else [c]) ++ ['"'] else w

/-- An item that may be written without quotes: no blank, and no quote at its beginning. -/
def Bare (w : Str) : Prop := ' ' ∉ w ∧ w.head? ≠ some '"'

end Spec

theorem csv_quoted (w rest : Str) : ∀ acc : Str,
    csvGo (.quoted acc) ((w.flatMap fun c => if c = '"' then ['"', '"'] else [c]) ++ '"' :: rest)
      = csvGo (.quote (w.reverse ++ acc)) rest := by
  induction w with
  | nil =>
    intro acc
    rw [List.flatMap_nil, List.nil_append, csvGo, if_pos rfl]
    rfl
  | cons c w ih =>
    intro acc
    rw [List.flatMap_cons]
    by_cases hc : c = '"'
    · rw [if_pos hc]
      change csvGo (.quoted acc) ('"' :: '"' :: _) = _
      rw [csvGo, if_pos rfl, csvGo, if_pos rfl]
      have := ih ('"' :: acc)
      rw [List.reverse_cons, hc, List.append_assoc]
      exact this
    · rw [if_neg hc]
      change csvGo (.quoted acc) (c :: _) = _
      rw [csvGo, if_neg hc]
      have := ih (c :: acc)
      rw [List.reverse_cons, List.append_assoc]
      exact this

theorem csv_bare (w rest : Str) (hw : ' ' ∉ w) : ∀ acc : Str,
    csvGo (.plain acc) (w ++ rest) = csvGo (.plain (w.reverse ++ acc)) rest := by
  induction w with
  | nil => intro acc; rfl
  | cons c w ih =>
    intro acc
    have hc : c ≠ ' ' := fun h => hw (by rw [h]; exact List.mem_cons_self)
    rw [List.cons_append, csvGo, if_neg hc, ih (fun h => hw (List.mem_cons_of_mem _ h)), List.reverse_cons,
      List.append_assoc]
    rfl

/-- One written item at the start of a field. -/
theorem csv_item (q : Bool) (w : Str) (h : q = true ∨ Bare w) :
    csvGo .start (written q w) = [w] ∧ ∀ rest, csvGo .start (written q w ++ ' ' :: rest) = w :: csvGo .start rest := by
  cases q with
  | true =>
    unfold written
    rw [if_pos rfl]
    constructor
    · rw [List.cons_append, csvGo, if_neg (by decide), if_pos rfl, csv_quoted]
      rw [List.append_nil, csvGo, List.reverse_reverse]
    · intro rest
      rw [List.cons_append, List.cons_append, csvGo, if_neg (by decide), if_pos rfl, List.append_assoc,
        List.singleton_append, csv_quoted, List.append_nil, csvGo, if_neg (by decide), if_pos rfl, List.reverse_reverse]
  | false =>
    have hb : Bare w := by
      rcases h with h | h
      · cases h
      · exact h
    unfold written
    rw [if_neg (by decide)]
    cases w with
    | nil =>
      refine ⟨rfl, fun rest => ?_⟩
      rw [List.nil_append, csvGo, if_pos rfl]
    | cons c w =>
      have h1 : c ≠ ' ' := fun e => hb.1 (by rw [e]; exact List.mem_cons_self)
      have h2 : c ≠ '"' := fun e => hb.2 (by rw [e]; rfl)
      have h3 : ' ' ∉ w := fun e => hb.1 (List.mem_cons_of_mem _ e)
      constructor
      · have := csv_bare w [] h3 [c]
        rw [List.append_nil] at this
        rw [csvGo, if_neg h1, if_neg h2, this, csvGo]
        simp
      · intro rest
        rw [List.cons_append, csvGo, if_neg h1, if_neg h2, csv_bare w _ h3 [c], csvGo, if_pos rfl]
        simp

/-- **C102.** The text of a command is split into the items it was written from, one blank between two, whatever
characters the quoted items contain; empty items are left out. -/
theorem quoted_items (items : List (Bool × Str)) (h : ∀ x ∈ items, x.1 = true ∨ Bare x.2)
    (hne : Str.joinBlank (items.map fun x => written x.1 x.2) ≠ []) :
    toArgv (Str.joinBlank (items.map fun x => written x.1 x.2)) =
      .ok ((items.map (·.2)).filter fun w => decide (w ≠ [])) := by
  have key : items ≠ [] → csvGo .start (Str.joinBlank (items.map fun x => written x.1 x.2)) = items.map (·.2) := by
    intro h0
    clear hne
    induction items with
    | nil => exact absurd rfl h0
    | cons x items ih =>
      cases items with
      | nil => exact (csv_item x.1 x.2 (h x (by simp))).1
      | cons y items =>
        have e : Str.joinBlank ((x :: y :: items).map fun x => written x.1 x.2) =
          written x.1 x.2 ++ ' ' :: Str.joinBlank ((y :: items).map fun x => written x.1 x.2) := rfl
        rw [e, (csv_item x.1 x.2 (h x (by simp))).2, ih (fun z hz => h z (List.mem_cons_of_mem _ hz)) (by simp)]
        rfl
  unfold toArgv
  rw [if_neg hne, key (fun h0 => hne (by rw [h0]; rfl))]

/-- No text at all has no first row. -/
theorem no_command : toArgv [] = .error .indexError := rfl

/-- A file name with a blank and a quote in it. -/
example : toArgv "-i \"my \"\"best\"\" file.grb\" -o out".toList =
    .ok ["-i".toList, "my \"best\" file.grb".toList, "-o".toList, "out".toList] := by decide +kernel

/-! ## C103 -/

namespace Spec

def Digit (c : Char) : Prop := '0' ≤ c ∧ c ≤ '9'

/-- No eight digits in a row. -/
def NoDate (s : Str) : Prop := ¬ ∃ a d b, s = a ++ d ++ b ∧ d.length = 8 ∧ ∀ c ∈ d, Digit c

/-- What the program keeps of a row of digits: whole tens are removed from the left, and what is left if that is
eight or nine digits. -/
def keptDigits (d : Str) : Str := if d.length % 10 < 8 then d.drop (d.length - d.length % 10) else []

end Spec

theorem digitRun_digits (d b : Str) (hd : ∀ c ∈ d, Digit c) (hb : ∀ c, b.head? = some c → ¬ Digit c) :
    digitRun (d ++ b) = d.length := by
  unfold digitRun
  induction d with
  | nil =>
    cases b with
    | nil => rfl
    | cons c b =>
      have : ¬ Digit c := hb c rfl
      have hn : ¬ Str.isDigitChar c = true := by unfold Str.isDigitChar; rw [decide_eq_true_eq]; exact this
      rw [List.nil_append, List.takeWhile_cons, if_neg hn]
  | cons c d ih =>
    rw [List.cons_append, List.takeWhile_cons, if_pos, List.length_cons, ih (fun x hx => hd x (List.mem_cons_of_mem _ hx)),
      List.length_cons]
    unfold Str.isDigitChar; rw [decide_eq_true_eq]; exact hd c List.mem_cons_self

theorem subLongGo_skip : ∀ (a s : Str), subLongGo a.length (a ++ s) = subLongGo 0 s
  | [], s => by cases s <;> rfl
  | c :: a, s => by
    rw [List.length_cons, List.cons_append, subLongGo]
    exact subLongGo_skip a s

theorem subLongGo_drop (k : Nat) (d s : Str) (h : k ≤ d.length) :
    subLongGo k (d ++ s) = subLongGo 0 (d.drop k ++ s) := by
  have := subLongGo_skip (d.take k) (d.drop k ++ s)
  rw [List.length_take, Nat.min_eq_left h, ← List.append_assoc, List.take_append_drop] at this
  exact this

/-- A short row of digits stays. -/
theorem subLong_short (d b : Str) (hd : ∀ c ∈ d, Digit c) (hb : ∀ c, b.head? = some c → ¬ Digit c) (hl : d.length < 8) :
    subLongGo 0 (d ++ b) = d ++ subLongGo 0 b := by
  induction d with
  | nil => rfl
  | cons c d ih =>
    have hr := digitRun_digits (c :: d) b hd hb
    rw [List.cons_append] at hr ⊢
    rw [subLongGo, if_neg (by omega), ih (fun x hx => hd x (List.mem_cons_of_mem _ hx))
      (by rw [List.length_cons] at hl; omega)]
    rfl

/-- A row of digits of any length. -/
theorem subLong_digits (d b : Str) (hd : ∀ c ∈ d, Digit c) (hb : ∀ c, b.head? = some c → ¬ Digit c) :
    subLongGo 0 (d ++ b) = keptDigits d ++ subLongGo 0 b := by
  induction hn : d.length using Nat.strong_induction_on generalizing d with
  | _ N ih =>
    by_cases h8 : d.length < 8
    · rw [subLong_short d b hd hb h8]
      unfold keptDigits
      rw [if_pos (by omega), Nat.mod_eq_of_lt (by omega), Nat.sub_self, List.drop_zero]
    · have hr := digitRun_digits d b hd hb
      have key : subLongGo 0 (d ++ b) = subLongGo 0 (d.drop (min 10 d.length) ++ b) := by
        cases d with
        | nil => exact absurd (by simp) h8
        | cons c d =>
          rw [List.cons_append] at hr ⊢
          rw [subLongGo, if_pos (by omega), hr, subLongGo_drop _ _ _ (by rw [List.length_cons]; omega)]
          have : min 10 (c :: d).length = (min 10 (c :: d).length - 1) + 1 := by rw [List.length_cons]; omega
          conv_rhs => rw [this, List.drop_succ_cons]
      rw [key]
      have hdl : (d.drop (min 10 d.length)).length = d.length - min 10 d.length := List.length_drop
      rw [ih (d.drop (min 10 d.length)).length (by rw [hdl]; omega) (d.drop (min 10 d.length))
        (fun c hc => hd c (List.mem_of_mem_drop hc)) rfl]
      congr 1
      unfold keptDigits
      rw [hdl]
      by_cases h10 : d.length < 10
      · have e1 : d.length - min 10 d.length = 0 := by omega
        have e2 : ¬ d.length % 10 < 8 := by omega
        rw [e1, if_neg e2, if_pos (by decide)]
        rw [List.drop_eq_nil_of_le (by omega)]
      · have e1 : min 10 d.length = 10 := by omega
        have e2 : (d.length - 10) % 10 = d.length % 10 := by omega
        rw [e1, e2]
        by_cases hm : d.length % 10 < 8
        · rw [if_pos hm, if_pos hm, List.drop_drop]
          congr 1
          omega
        · rw [if_neg hm, if_neg hm]

theorem noDate_tail {c : Char} {s : Str} (h : NoDate (c :: s)) : NoDate s := by
  rintro ⟨a, d, b, e, hl, hd⟩
  exact h ⟨c :: a, d, b, by rw [e]; rfl, hl, hd⟩

/-- Text without dates, before something that does not begin with a digit or not ending in a digit itself, stays. -/
theorem subLong_plain (a s : Str) (ha : NoDate a) (hend : (∀ c, a.getLast? = some c → ¬ Digit c) ∨ s = []) :
    subLongGo 0 (a ++ s) = a ++ subLongGo 0 s := by
  induction a with
  | nil => rfl
  | cons c a ih =>
    have hrun : digitRun (c :: a ++ s) < 8 := by
      by_contra hc
      unfold digitRun at hc
      have hpre : (List.takeWhile Str.isDigitChar (c :: a ++ s)) <+: (c :: a ++ s) := List.takeWhile_prefix _
      have hdig : ∀ x ∈ List.takeWhile Str.isDigitChar (c :: a ++ s), Digit x := by
        intro x hx
        have := Str.takeWhile_all _ x hx
        unfold Str.isDigitChar at this
        rwa [decide_eq_true_eq] at this
      have hle : (List.takeWhile Str.isDigitChar (c :: a ++ s)).length ≤ (c :: a).length := by
        rcases hend with he | he
        · by_contra hlt
          have hpre2 : (c :: a) <+: List.takeWhile Str.isDigitChar (c :: a ++ s) :=
            List.prefix_of_prefix_length_le (List.prefix_append _ _) hpre (by omega)
          have hl := List.getLast?_eq_getLast_of_ne_nil (l := c :: a) (by simp)
          exact he _ hl (hdig _ (hpre2.subset (List.getLast_mem _)))
        · have := hpre.length_le
          rw [he, List.append_nil] at this
          rw [he, List.append_nil]
          exact this
      have hpre3 : List.takeWhile Str.isDigitChar (c :: a ++ s) <+: (c :: a) :=
        List.prefix_of_prefix_length_le hpre (List.prefix_append _ _) hle
      obtain ⟨r, hr⟩ := hpre3
      refine ha ⟨[], (List.takeWhile Str.isDigitChar (c :: a ++ s)).take 8,
        (List.takeWhile Str.isDigitChar (c :: a ++ s)).drop 8 ++ r, ?_, ?_, ?_⟩
      · rw [List.nil_append, ← List.append_assoc, List.take_append_drop, hr]
      · rw [List.length_take]; omega
      · exact fun x hx => hdig x (List.mem_of_mem_take hx)
    rw [List.cons_append] at hrun ⊢
    rw [subLongGo, if_neg (by omega), ih (noDate_tail ha)]
    · rfl
    · rcases hend with he | he
      · left
        intro x hx
        cases a with
        | nil => cases hx
        | cons y a => exact he x (by rw [List.getLast?_cons_cons]; exact hx)
      · right; exact he

theorem digit_lower (c : Char) : Digit c.toLower ↔ Digit c := by
  have hd : ∀ x : Char, Digit x ↔ 48 ≤ x.toNat ∧ x.toNat ≤ 57 := by
    intro x
    unfold Digit
    rw [Char.le_def, Char.le_def, UInt32.le_iff_toNat_le, UInt32.le_iff_toNat_le]
    exact Iff.rfl
  rw [hd, hd]
  unfold Char.toLower
  split
  · rename_i h
    rw [ge_iff_le, UInt32.le_iff_toNat_le, UInt32.le_iff_toNat_le] at h
    have h1 : 65 ≤ c.toNat ∧ c.toNat ≤ 90 := h
    have h2 : ∀ pr, (⟨c.val + ('a'.val - 'A'.val), pr⟩ : Char).toNat = c.toNat + 32 := by
      intro pr
      change (c.val + ('a'.val - 'A'.val)).toNat = c.val.toNat + 32
      rw [UInt32.toNat_add]
      have : ('a'.val - 'A'.val : UInt32).toNat = 32 := by decide
      rw [this]
      have : c.val.toNat ≤ 90 := h1.2
      omega
    constructor
    · intro h3; rw [h2] at h3; omega
    · intro h3; omega
  · exact Iff.rfl

theorem noDate_lower {s : Str} (h : NoDate s) : NoDate (Str.lower s) := by
  rintro ⟨a, d, b, e, hl, hd⟩
  unfold Str.lower at e
  obtain ⟨s1, s2, rfl, h1, rfl⟩ := List.map_eq_append_iff.1 e
  obtain ⟨s3, s4, rfl, rfl, rfl⟩ := List.map_eq_append_iff.1 h1
  refine h ⟨s3, s4, s2, rfl, by rw [List.length_map] at hl; exact hl, fun c hc => ?_⟩
  exact (digit_lower c).1 (hd _ (List.mem_map_of_mem hc))

theorem lower_digits {d : Str} (hd : ∀ c ∈ d, Digit c) : Str.lower d = d := by
  unfold Str.lower
  induction d with
  | nil => rfl
  | cons c d ih =>
    rw [List.map_cons, ih (fun x hx => hd x (List.mem_cons_of_mem _ hx))]
    congr 1
    have hc := hd c List.mem_cons_self
    unfold Char.toLower
    rw [dif_neg]
    rintro ⟨h1, -⟩
    have h2 : c ≤ '9' := hc.2
    rw [Char.le_def, UInt32.le_iff_toNat_le] at h2
    rw [ge_iff_le, UInt32.le_iff_toNat_le] at h1
    have h3 : c.val.toNat ≤ 57 := h2
    have h4 : 65 ≤ c.val.toNat := h1
    omega

/-! ### the name without its extension -/

theorem dropWhile_dot (ext rest : Str) (h : '.' ∉ ext) :
    (ext ++ '.' :: rest).dropWhile (· ≠ '.') = '.' :: rest := by
  induction ext with
  | nil => rw [List.nil_append, List.dropWhile_cons, if_neg (by decide)]
  | cons c ext ih =>
    have hc : c ≠ '.' := fun e => h (by rw [e]; exact List.mem_cons_self)
    rw [List.cons_append, List.dropWhile_cons, if_pos (by simpa using hc), ih (fun e => h (List.mem_cons_of_mem _ e))]

/-- The part before the last dot, if there is something else than dots in it. -/
theorem withoutExt_ext (stem ext : Str) (h : '.' ∉ ext) (hs : ∃ c ∈ stem, c ≠ '.') :
    withoutExt (stem ++ '.' :: ext) = stem := by
  unfold withoutExt
  have e : (stem ++ '.' :: ext).reverse = ext.reverse ++ '.' :: stem.reverse := by simp
  rw [e, dropWhile_dot _ _ (by simpa using h)]
  dsimp only
  obtain ⟨c, hc, hd⟩ := hs
  rw [if_neg, List.reverse_reverse]
  intro hall
  rw [List.all_eq_true] at hall
  exact hd (by simpa using hall c (by simpa using hc))

/-- Names that begin with their only dots, like `.grb`, are kept. -/
theorem withoutExt_dots (stem ext : Str) (h : '.' ∉ ext) (hs : ∀ c ∈ stem, c = '.') :
    withoutExt (stem ++ '.' :: ext) = stem ++ '.' :: ext := by
  unfold withoutExt
  have e : (stem ++ '.' :: ext).reverse = ext.reverse ++ '.' :: stem.reverse := by simp
  rw [e, dropWhile_dot _ _ (by simpa using h)]
  dsimp only
  rw [if_pos]
  rw [List.all_eq_true]
  intro c hc
  simpa using hs c (by simpa using hc)

theorem withoutExt_none (name : Str) (h : '.' ∉ name) : withoutExt name = name := by
  unfold withoutExt
  have e : name.reverse.dropWhile (· ≠ '.') = [] := by
    have h' : '.' ∉ name.reverse := by simpa using h
    generalize name.reverse = l at h'
    induction l with
    | nil => rfl
    | cons c l ih =>
      have hc : c ≠ '.' := fun e => h' (by rw [e]; exact List.mem_cons_self)
      rw [List.dropWhile_cons_of_pos (by simpa using hc)]
      exact ih fun hm => h' (List.mem_cons_of_mem _ hm)
  rw [e]

namespace Spec

/-- What is left of a name: no dashes, underscores and dots. -/
def letters (s : Str) : Str := s.filter fun c => decide (c ≠ '-' ∧ c ≠ '_' ∧ c ≠ '.')

end Spec

theorem letters_eq (s : Str) : s.filter (fun x => !(x == '-' || x == '_' || x == '.')) = letters s := by
  unfold letters
  apply List.filter_congr
  intro c _
  rw [Bool.eq_iff_iff]
  simp [and_assoc]

/-- **C103.** The name of a file in table identifiers: the extension is cut off, the text is in lower case, a row of
digits of eight to ten (and whole tens of longer ones) is left out, as are dashes, underscores and dots; the first ten
characters are kept. -/
theorem filename_date (a d b ext : Str) (hext : '.' ∉ ext) (hd : ∀ c ∈ d, Digit c) (hd0 : 8 ≤ d.length)
    (ha : NoDate a) (hb : NoDate b) (hae : ∀ c, a.getLast? = some c → ¬ Digit c)
    (hbs : ∀ c, b.head? = some c → ¬ Digit c)
    (h3 : 3 ≤ (letters (Str.lower a ++ keptDigits d ++ Str.lower b)).length) :
    normalizeFilename (a ++ d ++ b ++ '.' :: ext) =
      (letters (Str.lower a ++ keptDigits d ++ Str.lower b)).take 10 := by
  have hstem : ∃ c ∈ a ++ d ++ b, c ≠ '.' := by
    cases d with
    | nil => exact absurd hd0 (by decide)
    | cons c d =>
      refine ⟨c, by simp, fun e => ?_⟩
      have := hd c List.mem_cons_self
      rw [e] at this
      exact absurd this.1 (by decide)
  have hsub : subLongGo 0 (Str.lower (a ++ d ++ b)) = Str.lower a ++ keptDigits d ++ Str.lower b := by
    have e : Str.lower (a ++ d ++ b) = Str.lower a ++ (d ++ (Str.lower b)) := by
      conv_rhs => rw [← lower_digits hd]
      unfold Str.lower
      rw [List.map_append, List.map_append, List.append_assoc]
    rw [e, subLong_plain _ _ (noDate_lower ha), subLong_digits _ _ hd]
    · have := subLong_plain (Str.lower b) [] (noDate_lower hb) (Or.inr rfl)
      rw [List.append_nil] at this
      rw [this]
      change _ ++ (_ ++ (_ ++ [])) = _
      rw [List.append_nil, List.append_assoc]
    · intro c hc
      unfold Str.lower at hc
      rw [List.head?_map] at hc
      cases hb0 : b.head? with
      | none => rw [hb0] at hc; cases hc
      | some x =>
        rw [hb0] at hc
        injection hc with hc
        rw [← hc, digit_lower]
        exact hbs x hb0
    · left
      intro c hc
      unfold Str.lower at hc
      rw [List.getLast?_map] at hc
      cases ha0 : a.getLast? with
      | none => rw [ha0] at hc; cases hc
      | some x =>
        rw [ha0] at hc
        injection hc with hc
        rw [← hc, digit_lower]
        exact hae x ha0
  unfold normalizeFilename
  dsimp only
  rw [withoutExt_ext _ _ hext hstem, hsub, letters_eq]
  rw [if_neg (c := Str.lower a ++ keptDigits d ++ Str.lower b = [])]
  · rw [if_neg (by omega)]
  · intro h0
    rw [h0] at h3
    exact absurd h3 (by decide)

/-- Names that differ only in their date (eight to ten digits) give the same text. -/
theorem filename_date_free (a d d' b ext ext' : Str) (hext : '.' ∉ ext) (hext' : '.' ∉ ext') (hd : ∀ c ∈ d, Digit c)
    (hd' : ∀ c ∈ d', Digit c) (hl : 8 ≤ d.length ∧ d.length ≤ 10) (hl' : 8 ≤ d'.length ∧ d'.length ≤ 10)
    (ha : NoDate a) (hb : NoDate b) (hae : ∀ c, a.getLast? = some c → ¬ Digit c)
    (hbs : ∀ c, b.head? = some c → ¬ Digit c) (h3 : 3 ≤ (letters (Str.lower a ++ Str.lower b)).length) :
    normalizeFilename (a ++ d ++ b ++ '.' :: ext) = normalizeFilename (a ++ d' ++ b ++ '.' :: ext') := by
  have hk : ∀ d : Str, 8 ≤ d.length ∧ d.length ≤ 10 → keptDigits d = [] := by
    intro d hl
    unfold keptDigits
    split
    · rename_i h
      have : d.length = 10 := by omega
      rw [this]
      exact List.drop_eq_nil_of_le (by omega)
    · rfl
  rw [filename_date a d b ext hext hd hl.1 ha hb hae hbs (by rw [hk d hl, List.append_nil]; exact h3),
    filename_date a d' b ext' hext' hd' hl'.1 ha hb hae hbs (by rw [hk d' hl', List.append_nil]; exact h3),
    hk d hl, hk d' hl']

/-- Names without dates. -/
theorem filename_plain (stem ext : Str) (hext : '.' ∉ ext) (hs : ∃ c ∈ stem, c ≠ '.') (hd : NoDate stem)
    (h3 : 3 ≤ (letters (Str.lower stem)).length) :
    normalizeFilename (stem ++ '.' :: ext) = (letters (Str.lower stem)).take 10 := by
  have hsub : subLongGo 0 (Str.lower stem) = Str.lower stem := by
    have := subLong_plain (Str.lower stem) [] (noDate_lower hd) (Or.inr rfl)
    rw [List.append_nil] at this
    rw [this]
    change _ ++ [] = _
    rw [List.append_nil]
  unfold normalizeFilename
  dsimp only
  rw [withoutExt_ext _ _ hext hs, hsub, ite_self, letters_eq, if_neg (by omega)]

example : normalizeFilename "EUE_2015122500-fc.grb".toList = "euefc".toList ∧
    normalizeFilename "EUE_20160101-fc.grib2".toList = "euefc".toList ∧
    normalizeFilename "EUE_201512250012-fc.grb".toList = "eue12fc".toList := by decide +kernel

/-- The theorem applies to the first of them. -/
example : normalizeFilename ("EUE_".toList ++ "2015122500".toList ++ "-fc".toList ++ '.' :: "grb".toList) =
    normalizeFilename ("EUE_".toList ++ "20160101".toList ++ "-fc".toList ++ '.' :: "grib2".toList) := by
  have e1 : "EUE_".toList = ['E', 'U', 'E', '_'] := by decide
  have e2 : "-fc".toList = ['-', 'f', 'c'] := by decide
  have hno : ∀ s : Str, s.length < 8 → NoDate s := by
    rintro s hs ⟨a, d, b, e, hl, -⟩
    rw [e] at hs
    simp only [List.length_append] at hs
    omega
  refine filename_date_free _ _ _ _ _ _ (by decide) (by decide) ?_ ?_ (by decide) (by decide)
    (hno _ (by decide)) (hno _ (by decide)) ?_ ?_ (by decide +kernel)
  · unfold Digit; decide
  · unfold Digit; decide
  · rw [e1]; intro c hc; injection hc with hc; rw [← hc]; unfold Digit; decide
  · rw [e2]; intro c hc; injection hc with hc; rw [← hc]; unfold Digit; decide

end PyG2P
