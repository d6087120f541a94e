import Verif.Model.ArgParse
import Verif.Props.Context
import Verif.Props.NumberText
import Verif.Props.Strings

/-! # What is written on the command line (C140, C141) -/

namespace PyG2P
open ArgParse

namespace Spec

/-- What follows an option. -/
inductive Takes where
  | text
  | number
  | oneOf (l : List String)
  | numberOf (l : List Int)

/-- The options that take a value, as the help lists them. -/
def valued : List (String × String × Takes) := [
  ("-c", "--commandsFile", .text), ("-o", "--outDir", .text), ("-i", "--inputFile", .text),
  ("-I", "--inputFile2", .text), ("-s", "--start", .number), ("-e", "--end", .number),
  ("-m", "--perturbationNumber", .number), ("-T", "--dataTime", .numberOf [0, 1200]), ("-D", "--dataDate", .number),
  ("-f", "--fmap", .number), ("-F", "--format", .oneOf ["netcdf", "pcraster", "notset"]), ("-x", "--ext", .number),
  ("-n", "--namePrefix", .text), ("-O", "--offset", .text), ("-S", "--scaleFactor", .text),
  ("-vM", "--validMax", .text), ("-vm", "--validMin", .text), ("-vf", "--valueFormat", .text),
  ("-U", "--outputStepUnits", .text), ("-l", "--loggerLevel", .oneOf ["ERROR", "WARNING", "INFO", "DEBUG"]),
  ("-N", "--intertableDir", .text), ("-G", "--geopotentialDir", .text), ("-g", "--addGeopotential", .text),
  ("-W", "--downloadConf", .oneOf ["geopotentials", "intertables"])]

/-- The options without value. -/
def switches : List (String × String) := [
  ("-B", "--createIntertable"), ("-X", "--interpolationParallel"), ("-A", "--underApi"), ("-K", "--checkConf")]

/-- Values of the options that are not given (all others: nothing). -/
def initially : List (String × JVal) := [
  ("outDir", .str "./".toList), ("fmap", .int 1), ("ext", .int 1), ("format", .str "notset".toList),
  ("loggerLevel", .str "INFO".toList), ("createIntertable", .bool false), ("interpolationParallel", .bool false),
  ("underApi", .bool false), ("checkConf", .bool false)]

/-- A whole number written in decimal, with or without sign. -/
def WholeNumber (s : Str) (z : Int) : Prop :=
  ∃ ds : List Nat, ds ≠ [] ∧ (∀ d ∈ ds, d < 10) ∧
    (((s = digitsText ds ∨ s = '+' :: digitsText ds) ∧ z = (Nat.ofDigits 10 ds.reverse : Nat)) ∨
      (s = '-' :: digitsText ds ∧ z = -((Nat.ofDigits 10 ds.reverse : Nat) : Int)))

/-- The value that a text stands for. -/
def Reads (k : Takes) (s : Str) (x : JVal) : Prop :=
  match k with
  | .text => x = .str s
  | .number => ∃ z, WholeNumber s z ∧ x = .int z
  | .oneOf l => s ∈ l.map String.toList ∧ x = .str s
  | .numberOf l => ∃ z, WholeNumber s z ∧ z ∈ l ∧ x = .int z

/-- A negative number in plain decimal notation: `-5`, `-0.5`, `-.5`. -/
def NegDecimal (s : Str) : Prop :=
  ∃ a b : Str, (∀ c ∈ a ++ b, '0' ≤ c ∧ c ≤ '9') ∧
    ((s = '-' :: a ∧ a ≠ []) ∨ (s = '-' :: (a ++ '.' :: b) ∧ b ≠ []))

/-- One option as written. -/
inductive Written where
  /-- `-s 6`, `--start 6` -/
  | apart (name value : Str)
  /-- `-s=6`, `--start=6` -/
  | equal (name value : Str)
  /-- `-s6` -/
  | joined (name value : Str)
  /-- `-B` -/
  | switch (name : Str)
  /-- `--sta 6` -/
  | shortened (name value : Str)
  /-- `--sta=6` -/
  | shortenedEqual (name value : Str)
  /-- `--create` -/
  | shortenedSwitch (name : Str)

/-- The arguments it consists of. -/
def Written.words : Written → List Str
  | .apart n v => [n, v]
  | .equal n v => [n ++ '=' :: v]
  | .joined n v => [n ++ v]
  | .switch n => [n]
  | .shortened n v => [n, v]
  | .shortenedEqual n v => [n ++ '=' :: v]
  | .shortenedSwitch n => [n]

/-- The long names. -/
def longNames : List String := "--help" :: valued.map (fun e => e.2.1) ++ switches.map Prod.snd

/-- The beginning of a long name, that is the beginning of no other one. -/
def Shortens (n : Str) (full : String) : Prop :=
  ['-', '-'] <+: n ∧ 2 < n.length ∧ n ≠ full.toList ∧ n <+: full.toList ∧
    ∀ l ∈ longNames, n <+: l.toList → l = full

/-- What it sets. -/
def Sets (w : Written) (dest : Str) (x : JVal) : Prop :=
  match w with
  | .apart n v => ∃ e ∈ valued, (n = e.1.toList ∨ n = e.2.1.toList) ∧ dest = (e.2.1.toList).drop 2 ∧
      Reads e.2.2 v x ∧ (v.head? ≠ some '-' ∨ v = ['-'] ∨ NegDecimal v)
  | .equal n v => ∃ e ∈ valued, (n = e.1.toList ∨ n = e.2.1.toList) ∧ dest = (e.2.1.toList).drop 2 ∧ Reads e.2.2 v x
  | .joined n v => ∃ e ∈ valued, n = e.1.toList ∧ n.length = 2 ∧ dest = (e.2.1.toList).drop 2 ∧ Reads e.2.2 v x ∧
      v ≠ [] ∧ v.head? ≠ some '='
  | .switch n => ∃ e ∈ switches, (n = e.1.toList ∨ n = e.2.toList) ∧ dest = (e.2.toList).drop 2 ∧ x = .bool true
  | .shortened n v => ∃ e ∈ valued, Shortens n e.2.1 ∧ dest = (e.2.1.toList).drop 2 ∧
      Reads e.2.2 v x ∧ (v.head? ≠ some '-' ∨ v = ['-'] ∨ NegDecimal v)
  | .shortenedEqual n v => ∃ e ∈ valued, Shortens n e.2.1 ∧ dest = (e.2.1.toList).drop 2 ∧ Reads e.2.2 v x
  | .shortenedSwitch n => ∃ e ∈ switches, Shortens n e.2 ∧ dest = (e.2.toList).drop 2 ∧ x = .bool true

/-- The last value an option was given. -/
def LastGiven (items : List (Written × Str × JVal)) (dest : Str) (x : JVal) : Prop :=
  ∃ pre w post, items = pre ++ (w, dest, x) :: post ∧ ∀ q ∈ post, q.2.1 ≠ dest

end Spec

namespace ArgParse

/-! ## Numbers -/

theorem digit_iff (c : Char) : Str.isDigitChar c = true ↔ '0' ≤ c ∧ c ≤ '9' := by
  unfold Str.isDigitChar
  exact decide_eq_true_iff

theorem char_digit (c : Char) (h : '0' ≤ c ∧ c ≤ '9') : ∃ d, d < 10 ∧ c = Nat.digitChar d := by
  have h1 : 48 ≤ c.toNat := h.1
  have h2 : c.toNat ≤ 57 := h.2
  refine ⟨c.toNat - 48, by omega, ?_⟩
  apply Char.toNat_inj.1
  rw [(digitChar_facts (c.toNat - 48) (by omega)).1]
  omega

theorem digits_of (s : Str) (h0 : s ≠ []) (h : ∀ c ∈ s, '0' ≤ c ∧ c ≤ '9') :
    ∃ ds : List Nat, ds ≠ [] ∧ (∀ d ∈ ds, d < 10) ∧ s = Spec.digitsText ds := by
  suffices H : ∃ ds : List Nat, (∀ d ∈ ds, d < 10) ∧ s = Spec.digitsText ds by
    obtain ⟨ds, h1, h2⟩ := H
    refine ⟨ds, ?_, h1, h2⟩
    rintro rfl
    exact h0 h2
  clear h0
  induction s with
  | nil => exact ⟨[], by simp, rfl⟩
  | cons c s ih =>
    obtain ⟨ds, h1, h2⟩ := ih fun x hx => h x (List.mem_cons_of_mem _ hx)
    obtain ⟨d, hd, hc⟩ := char_digit c (h c List.mem_cons_self)
    refine ⟨d :: ds, ?_, ?_⟩
    · intro x hx
      rcases List.mem_cons.1 hx with e | hx
      · rw [e]; exact hd
      · exact h1 x hx
    · rw [h2, hc]; rfl

theorem toInt_iff (s : Str) (z : Int) : Str.toInt s = .ok z ↔ Spec.WholeNumber s z := by
  have key : ∀ (r : Str) (w : Int), (∃ ds : List Nat, ds ≠ [] ∧ (∀ d ∈ ds, d < 10) ∧ r = Spec.digitsText ds ∧
      w = (Nat.ofDigits 10 ds.reverse : Nat)) ↔ Str.isDigit r = true ∧ w = Str.natOf r := by
    intro r w
    constructor
    · rintro ⟨ds, h0, h, rfl, rfl⟩
      exact ⟨(isDigit_iff _).2 (numeral_digits ds h0 h), by rw [natOf_digits ds h]⟩
    · rintro ⟨h, rfl⟩
      obtain ⟨h0, h1⟩ := (isDigit_iff r).1 h
      obtain ⟨ds, e0, e1, e2⟩ := digits_of r h0 h1
      exact ⟨ds, e0, e1, e2, by rw [e2, natOf_digits ds e1]⟩
  have hm : ¬ ('0' ≤ '-' ∧ '-' ≤ '9') := by decide
  have hp : ¬ ('0' ≤ '+' ∧ '+' ≤ '9') := by decide
  have nodig : ∀ (c : Char) (r : Str) (ds : List Nat), ds ≠ [] → (∀ d ∈ ds, d < 10) → c :: r = Spec.digitsText ds →
      '0' ≤ c ∧ c ≤ '9' := by
    intro c r ds h0 h e
    exact (numeral_digits ds h0 h).2 c (e ▸ List.mem_cons_self)
  unfold Str.toInt
  split
  · rename_i r
    constructor
    · intro h
      split at h
      · rename_i hd
        obtain ⟨ds, e0, e1, e2, e3⟩ := (key r _).2 ⟨hd, rfl⟩
        refine ⟨ds, e0, e1, Or.inr ⟨by rw [e2], ?_⟩⟩
        injection h with h
        rw [← h, e3]
      · cases h
    · rintro ⟨ds, e0, e1, ⟨h | h, -⟩ | ⟨h, hz⟩⟩
      · exact absurd (nodig _ _ ds e0 e1 h) hm
      · injection h with h _; exact absurd h (by decide)
      · injection h with _ h
        obtain ⟨h1, h2⟩ := (key r _).1 ⟨ds, e0, e1, h, rfl⟩
        rw [if_pos h1, hz, h2]
  · rename_i r
    constructor
    · intro h
      split at h
      · rename_i hd
        obtain ⟨ds, e0, e1, e2, e3⟩ := (key r _).2 ⟨hd, rfl⟩
        refine ⟨ds, e0, e1, Or.inl ⟨Or.inr (by rw [e2]), ?_⟩⟩
        injection h with h
        rw [← h, e3]
      · cases h
    · rintro ⟨ds, e0, e1, ⟨h | h, hz⟩ | ⟨h, -⟩⟩
      · exact absurd (nodig _ _ ds e0 e1 h) hp
      · injection h with _ h
        obtain ⟨h1, h2⟩ := (key r _).1 ⟨ds, e0, e1, h, rfl⟩
        rw [if_pos h1, hz, h2]
      · injection h with h _; exact absurd h (by decide)
  · rename_i n1 n2
    constructor
    · intro h
      split at h
      · rename_i hd
        obtain ⟨ds, e0, e1, e2, e3⟩ := (key s _).2 ⟨hd, rfl⟩
        refine ⟨ds, e0, e1, Or.inl ⟨Or.inl e2, ?_⟩⟩
        injection h with h
        rw [← h, e3]
      · cases h
    · rintro ⟨ds, e0, e1, ⟨h | h, hz⟩ | ⟨h, -⟩⟩
      · obtain ⟨h1, h2⟩ := (key s _).1 ⟨ds, e0, e1, h, rfl⟩
        rw [if_pos h1, hz, h2]
      · exact absurd h (n2 _)
      · exact absurd h (n1 _)

/-! ## Names -/

/-- the kind of an option. -/
def toKind : Spec.Takes → Kind
  | .text => .text
  | .number => .int
  | .oneOf l => .oneOf (l.map String.toList)
  | .numberOf l => .intOf l

/-- the name and kind of an option. -/
def brief (o : OptSpec) : Str × Str × Kind := (o.short, o.long, o.kind)

theorem valued_names : ∀ e ∈ Spec.valued,
    (findOpt e.1.toList).map brief = some (e.1.toList, e.2.1.toList, toKind e.2.2) ∧
    (findOpt e.2.1.toList).map brief = some (e.1.toList, e.2.1.toList, toKind e.2.2) ∧
    isLong e.1.toList = false ∧ isLong e.2.1.toList = true ∧ e.1.toList.head? = some '-' ∧
    e.2.1.toList.head? = some '-' ∧ '=' ∉ e.1.toList ∧ '=' ∉ e.2.1.toList ∧ 2 ≤ e.1.toList.length ∧
    3 ≤ e.2.1.toList.length := by
  decide +kernel

theorem switch_names : ∀ e ∈ Spec.switches,
    (findOpt e.1.toList).map brief = some (e.1.toList, e.2.toList, Kind.flag) ∧
    (findOpt e.2.toList).map brief = some (e.1.toList, e.2.toList, Kind.flag) ∧
    isLong e.1.toList = false ∧ isLong e.2.toList = true ∧ e.1.toList.head? = some '-' ∧
    e.2.toList.head? = some '-' ∧ 2 ≤ e.1.toList.length ∧ 3 ≤ e.2.toList.length := by
  decide +kernel

theorem option_chars : ∀ p ∈ names, '=' ∉ p.1 ∧ 2 ≤ p.1.length ∧
    (∀ c, p.1[1]? = some c → ¬ ('0' ≤ c ∧ c ≤ '9') ∧ c ≠ '.') := by
  decide +kernel

theorem defaults_get : (∀ p ∈ Spec.initially, Dict.get? defaults p.1.toList = some p.2) ∧
    ∀ e ∈ Spec.valued, (e.2.1.toList).drop 2 ∈ Spec.initially.map (fun p => p.1.toList) ∨
      Dict.get? defaults ((e.2.1.toList).drop 2) = some .null := by
  decide +kernel

/-! ## What an argument is taken for -/

theorem find_mem {s : Str} {o : OptSpec} (h : findOpt s = some o) : (s, o) ∈ names := by
  unfold findOpt at h
  cases hf : names.find? fun p => p.1 == s with
  | none => rw [hf] at h; cases h
  | some q =>
    rw [hf] at h
    injection h with h
    have h1 := List.find?_some hf
    have h2 := List.mem_of_find?_eq_some hf
    have h3 : q.1 = s := eq_of_beq h1
    rw [← h3, ← h]
    exact h2

theorem find_none {s : Str} (h : ∀ p ∈ names, p.1 ≠ s) : findOpt s = none := by
  unfold findOpt
  rw [List.find?_eq_none.2 fun p hp hq => h p hp (eq_of_beq hq)]
  rfl

theorem classify_cons (r : Str) : classify ('-' :: r) =
    match findOpt ('-' :: r) with
    | some o => some (.opt o (isLong ('-' :: r)) none)
    | none =>
      if r = [] then some .arg
      else
        match withEq ('-' :: r) with
        | some (o, v) => some (.opt o (isLong ('-' :: r)) (some v))
        | none =>
          match candidates ('-' :: r) with
          | [t] => some t
          | _ :: _ :: _ => none
          | [] => if isNegNumber ('-' :: r) ∨ ' ' ∈ ('-' :: r) then some .arg else some .unknown := rfl

theorem head_cons {s : Str} {c : Char} (h : s.head? = some c) : ∃ r, s = c :: r := by
  cases s with
  | nil => cases h
  | cons a r => injection h with h; exact ⟨r, by rw [h]⟩

theorem classify_name {s : Str} {o : OptSpec} (hs : s.head? = some '-') (h : findOpt s = some o) :
    classify s = some (.opt o (isLong s) none) := by
  obtain ⟨r, rfl⟩ := head_cons hs
  rw [classify_cons, h]

theorem takeWhile_eq (n v : Str) (hn : '=' ∉ n) :
    (n ++ '=' :: v).takeWhile (· ≠ '=') = n ∧ (n ++ '=' :: v).dropWhile (· ≠ '=') = '=' :: v := by
  induction n with
  | nil => exact ⟨by simp, by simp⟩
  | cons c n ih =>
    have hc : c ≠ '=' := fun e => hn (by simp [e])
    have := ih fun h => hn (List.mem_cons_of_mem _ h)
    constructor
    · rw [List.cons_append, List.takeWhile_cons_of_pos (by simpa using hc), this.1]
    · rw [List.cons_append, List.dropWhile_cons_of_pos (by simpa using hc), this.2]

theorem splitEq_equal (n v : Str) (hn : '=' ∉ n) : splitEq (n ++ '=' :: v) = (n, some v) := by
  unfold splitEq
  rw [(takeWhile_eq n v hn).2, (takeWhile_eq n v hn).1]

theorem splitEq_none (s : Str) (h : '=' ∉ s) : splitEq s = (s, none) := by
  unfold splitEq
  have : s.dropWhile (· ≠ '=') = [] := by
    induction s with
    | nil => rfl
    | cons c s ih =>
      have hc : c ≠ '=' := fun e => h (by simp [e])
      rw [List.dropWhile_cons_of_pos (by simpa using hc)]
      exact ih fun hm => h (List.mem_cons_of_mem _ hm)
  rw [this]

theorem cut_at {c : Char} {v : Str} (h : c ∈ v) : ∃ a b, v = a ++ c :: b ∧ c ∉ a := by
  induction v with
  | nil => cases h
  | cons x v ih =>
    by_cases hx : x = c
    · exact ⟨[], v, by rw [hx]; rfl, by simp⟩
    · rcases List.mem_cons.1 h with h | h
      · exact absurd h.symm hx
      · obtain ⟨a, b, h1, h2⟩ := ih h
        refine ⟨x :: a, b, by rw [h1]; rfl, ?_⟩
        intro hm
        rcases List.mem_cons.1 hm with hm | hm
        · exact hx hm.symm
        · exact h2 hm

theorem isLong_append (n v : Str) (h : 2 ≤ n.length) : isLong (n ++ v) = isLong n := by
  unfold isLong
  match n, h with
  | a :: b :: n, _ => rfl

theorem classify_equal {n v : Str} {o : OptSpec} (hs : n.head? = some '-') (hl : 2 ≤ n.length) (hn : '=' ∉ n)
    (h : findOpt n = some o) : classify (n ++ '=' :: v) = some (.opt o (isLong n) (some v)) := by
  obtain ⟨r, rfl⟩ := head_cons hs
  have h0 : findOpt ('-' :: r ++ '=' :: v) = none := by
    apply find_none
    intro p hp he
    exact (option_chars p hp).1 (he ▸ by simp)
  rw [List.cons_append] at h0 ⊢
  have h1 : splitEq ('-' :: (r ++ '=' :: v)) = ('-' :: r, some v) := splitEq_equal ('-' :: r) v hn
  rw [classify_cons, h0]
  dsimp only
  have h2 : isLong ('-' :: (r ++ '=' :: v)) = isLong ('-' :: r) := isLong_append ('-' :: r) _ hl
  have h3 : withEq ('-' :: (r ++ '=' :: v)) = some (o, v) := by
    unfold withEq
    rw [h1]
    dsimp only
    rw [h]
    rfl
  rw [if_neg (by simp), h3]
  dsimp only
  rw [h2]

/-- names of two characters begin no other name, and belong to one option. -/
theorem short_names : ∀ p ∈ names, p.1.length = 2 →
    (∀ q ∈ names, p.1.isPrefixOf q.1 = true → q.1.length = 2) ∧ names.filter (fun q => decide (q.1 = p.1)) = [p] ∧
    isLong p.1 = false := by
  decide +kernel

theorem isPrefixOf_left (n v w : Str) (h : (n ++ v).isPrefixOf w = true) : n.isPrefixOf w = true := by
  rw [List.isPrefixOf_iff_prefix] at h ⊢
  exact (List.prefix_append n v).trans h

theorem find_longer {n v : Str} {o : OptSpec} (hl : n.length = 2) (h : findOpt n = some o) (hv : v ≠ []) :
    findOpt (n ++ v) = none := by
  apply find_none
  intro p hp he
  have h1 := (short_names (n, o) (find_mem h) hl).1 p hp (by
    rw [he, List.isPrefixOf_iff_prefix]
    exact List.prefix_append n v)
  rw [he, List.length_append, hl] at h1
  exact hv (List.length_eq_zero_iff.1 (by omega))

theorem classify_joined {n v : Str} {o : OptSpec} (hs : n.head? = some '-') (hl : n.length = 2) (h : findOpt n = some o)
    (hn : '=' ∉ n) (hv : v ≠ []) (hv2 : v.head? ≠ some '=') :
    classify (n ++ v) = some (.opt o false (some v)) := by
  have hsn := short_names (n, o) (find_mem h) hl
  have h0 : findOpt (n ++ v) = none := find_longer hl h hv
  have h1 : withEq (n ++ v) = none := by
    unfold withEq
    by_cases he : '=' ∈ v
    · obtain ⟨a, b, hab, ha⟩ := cut_at he
      have ha0 : a ≠ [] := by
        rintro rfl
        rw [hab] at hv2
        exact hv2 rfl
      rw [hab, ← List.append_assoc, splitEq_equal (n ++ a) b (by
        intro hm
        rcases List.mem_append.1 hm with hm | hm
        · exact hn hm
        · exact ha hm)]
      dsimp only
      rw [find_longer hl h ha0]
      rfl
    · rw [splitEq_none (n ++ v) (by
        intro hm
        rcases List.mem_append.1 hm with hm | hm
        · exact hn hm
        · exact he hm)]
  have h2 : candidates (n ++ v) = [.opt o false (some v)] := by
    have hlong : isLong (n ++ v) = false := by rw [isLong_append n v (by omega)]; exact hsn.2.2
    unfold candidates
    rw [hlong]
    have ht : (n ++ v).take 2 = n := by rw [← hl, List.take_left']; rfl
    have hd : (n ++ v).drop 2 = v := by rw [← hl, List.drop_left']; rfl
    rw [ht, hd]
    have hpre : ∀ p ∈ names, (n ++ v).isPrefixOf p.1 = false := by
      intro p hp
      by_contra hc
      rw [Bool.not_eq_false] at hc
      have := hsn.1 p hp (isPrefixOf_left _ _ _ hc)
      rw [List.isPrefixOf_iff_prefix] at hc
      have := hc.length_le
      rw [List.length_append, hl] at this
      exact hv (List.length_eq_zero_iff.1 (by omega))
    have h3 : names.filterMap (fun p => if p.1 = n then some (Tok.opt p.2 false (some v))
        else if (n ++ v).isPrefixOf p.1 then some (.opt p.2 false none) else none) =
        (names.filter fun q => decide (q.1 = n)).map fun p => Tok.opt p.2 false (some v) := by
      rw [← List.filterMap_eq_map, List.filterMap_filter]
      apply List.filterMap_congr
      intro p hp
      by_cases hc : p.1 = n
      · rw [if_pos hc, if_pos (by simpa using hc)]; rfl
      · rw [if_neg hc, hpre p hp, if_neg (by decide)]
        rw [if_neg (fun e => hc (of_decide_eq_true e))]
    have := hsn.2.1
    dsimp only at this
    rw [if_neg (by decide), h3, this]
    rfl
  obtain ⟨r, rfl⟩ := head_cons hs
  rw [List.cons_append] at h0 h1 h2 ⊢
  rw [classify_cons, h0]
  dsimp only
  rw [if_neg (by
    intro he
    exact hv (List.append_eq_nil_iff.1 he).2), h1, h2]

theorem isNeg_iff (s : Str) (h : Spec.NegDecimal s) : isNegNumber s = true := by
  have span : ∀ (a b : Str), (∀ c ∈ a, '0' ≤ c ∧ c ≤ '9') → (a ++ '.' :: b).dropWhile Str.isDigitChar = '.' :: b := by
    intro a b ha
    induction a with
    | nil => rw [List.nil_append, List.dropWhile_cons_of_neg (by decide)]
    | cons c a ih =>
      rw [List.cons_append, List.dropWhile_cons_of_pos ((digit_iff c).2 (ha c List.mem_cons_self))]
      exact ih fun x hx => ha x (List.mem_cons_of_mem _ hx)
  have all : ∀ a : Str, a ≠ [] → (∀ c ∈ a, '0' ≤ c ∧ c ≤ '9') → allDigits a = true := by
    intro a h0 h
    unfold allDigits
    rw [Bool.and_eq_true, decide_eq_true_eq, List.all_eq_true]
    exact ⟨h0, fun c hc => (digit_iff c).2 (h c hc)⟩
  obtain ⟨a, b, hd, ⟨rfl, h0⟩ | ⟨rfl, h0⟩⟩ := h
  · show (allDigits a || _) = true
    rw [all a h0 fun c hc => hd c (List.mem_append_left _ hc), Bool.true_or]
  · show (_ || isFraction ((a ++ '.' :: b).dropWhile Str.isDigitChar)) = true
    rw [span a b fun c hc => hd c (List.mem_append_left _ hc)]
    show (_ || allDigits b) = true
    rw [all b h0 fun c hc => hd c (List.mem_append_right _ hc), Bool.or_true]

theorem neg_shape {s : Str} (h : Spec.NegDecimal s) :
    (∃ c r, s = '-' :: c :: r ∧ (('0' ≤ c ∧ c ≤ '9') ∨ c = '.')) ∧ '=' ∉ s := by
  have hq : ¬ ('0' ≤ '=' ∧ '=' ≤ '9') := by decide
  obtain ⟨a, b, hd, ⟨rfl, h0⟩ | ⟨rfl, h0⟩⟩ := h
  · constructor
    · cases a with
      | nil => exact absurd rfl h0
      | cons c r => exact ⟨c, r, rfl, Or.inl (hd c (by simp))⟩
    · intro hm
      rcases List.mem_cons.1 hm with hm | hm
      · exact absurd hm (by decide)
      · exact hq (hd _ (List.mem_append_left _ hm))
  · constructor
    · cases a with
      | nil => exact ⟨'.', b, rfl, Or.inr rfl⟩
      | cons c r => exact ⟨c, r ++ '.' :: b, rfl, Or.inl (hd c (by simp))⟩
    · intro hm
      rcases List.mem_cons.1 hm with hm | hm
      · exact absurd hm (by decide)
      · rcases List.mem_append.1 hm with hm | hm
        · exact hq (hd _ (List.mem_append_left _ hm))
        · rcases List.mem_cons.1 hm with hm | hm
          · exact absurd hm (by decide)
          · exact hq (hd _ (List.mem_append_right _ hm))

theorem classify_neg {s : Str} (h : Spec.NegDecimal s) : classify s = some .arg := by
  obtain ⟨⟨c, r, rfl, hc⟩, heq⟩ := neg_shape h
  have hno : ∀ p ∈ names, p.1[1]? ≠ some c := by
    intro p hp he
    have := (option_chars p hp).2.2 c he
    rcases hc with hc | hc
    · exact this.1 hc
    · exact this.2 hc
  have h0 : findOpt ('-' :: c :: r) = none := find_none fun p hp he => hno p hp (by rw [he]; rfl)
  rw [classify_cons, h0]
  dsimp only
  have h1 : withEq ('-' :: c :: r) = none := by
    unfold withEq
    rw [splitEq_none _ heq]
  rw [if_neg (by simp), h1]
  dsimp only
  have h2 : candidates ('-' :: c :: r) = [] := by
    unfold candidates
    have hlong : isLong ('-' :: c :: r) = false := by
      unfold isLong
      have : c ≠ '-' := by
        rintro rfl
        rcases hc with hc | hc
        · revert hc; decide
        · revert hc; decide
      simp [List.isPrefixOf, Ne.symm this]
    rw [hlong, if_neg (by decide)]
    rw [List.filterMap_eq_nil_iff]
    intro p hp
    rw [if_neg (by
      intro he
      apply hno p hp
      rw [he]; rfl), if_neg]
    intro hpre
    rw [List.isPrefixOf_iff_prefix] at hpre
    obtain ⟨t, ht⟩ := hpre
    apply hno p hp
    rw [← ht]; rfl
  rw [h2]
  dsimp only
  rw [if_pos (Or.inl (isNeg_iff _ h))]

theorem classify_value {v : Str} (h : v.head? ≠ some '-' ∨ v = ['-'] ∨ Spec.NegDecimal v) :
    classify v = some .arg ∧ v ≠ ['-', '-'] := by
  rcases h with h | h | h
  · cases v with
    | nil => exact ⟨rfl, by decide⟩
    | cons c r =>
      have hc : c ≠ '-' := fun e => h (by rw [e]; rfl)
      constructor
      · unfold classify
        split
        · rename_i r' he
          injection he with he _
          exact absurd he hc
        · rfl
      · intro he
        injection he with he _
        exact hc he
  · subst h
    constructor
    · decide +kernel
    · decide
  · refine ⟨classify_neg h, ?_⟩
    rintro rfl
    obtain ⟨⟨c, r, he, hc⟩, -⟩ := neg_shape h
    injection he with _ he
    injection he with he _
    subst he
    revert hc; decide

/-! ## Items -/

theorem classifyAll_cons {s : Str} {t : Tok} (h : classify s = some t) (hs : s ≠ ['-', '-']) (rest : List Str) :
    classifyAll (s :: rest) = (classifyAll rest).map fun l => (s, t) :: l := by
  show (if s = ['-', '-'] then some ((s, Tok.unknown) :: rest.map fun x => (x, Tok.arg))
    else match classify s, classifyAll rest with
      | some t, some l => some ((s, t) :: l)
      | _, _ => none) = _
  rw [if_neg hs, h]
  cases classifyAll rest <;> rfl

theorem brief_eq {o : Option OptSpec} {a b : Str} {k : Kind} (h : o.map brief = some (a, b, k)) :
    ∃ q, o = some q ∧ q.short = a ∧ q.long = b ∧ q.kind = k := by
  cases o with
  | none => cases h
  | some q =>
    injection h with h
    unfold brief at h
    injection h with h1 h
    injection h with h2 h3
    exact ⟨q, rfl, h1, h2, h3⟩

theorem takes_kind {o : OptSpec} {k : Spec.Takes} (h : o.kind = toKind k) : o.takes = true ∧ o.kind ≠ .help ∧
    o.kind ≠ .flag := by
  unfold OptSpec.takes
  rw [h]
  cases k <;> simp [toKind]

theorem valueOf_iff (k : Spec.Takes) (v : Str) (x : JVal) : valueOf (toKind k) v = some x ↔ Spec.Reads k v x := by
  cases k with
  | text =>
    show some (JVal.str v) = some x ↔ x = .str v
    rw [Option.some.injEq, eq_comm]
  | number =>
    show (match Str.toInt v with
      | .ok z => some (JVal.int z)
      | .error _ => none) = some x ↔ ∃ z, Spec.WholeNumber v z ∧ x = .int z
    constructor
    · intro h
      split at h
      · rename_i z hz
        injection h with h
        exact ⟨z, (toInt_iff v z).1 hz, h.symm⟩
      · cases h
    · rintro ⟨z, hz, rfl⟩
      rw [(toInt_iff v z).2 hz]
  | oneOf l =>
    show (if v ∈ l.map String.toList then some (JVal.str v) else none) = some x ↔ v ∈ l.map String.toList ∧ x = .str v
    constructor
    · intro h
      split at h
      · rename_i hm
        injection h with h
        exact ⟨hm, h.symm⟩
      · cases h
    · rintro ⟨hm, rfl⟩
      rw [if_pos hm]
  | numberOf l =>
    show (match Str.toInt v with
      | .ok z => if z ∈ l then some (JVal.int z) else none
      | .error _ => none) = some x ↔ ∃ z, Spec.WholeNumber v z ∧ z ∈ l ∧ x = .int z
    constructor
    · intro h
      split at h
      · rename_i z hz
        split at h
        · rename_i hm
          injection h with h
          exact ⟨z, (toInt_iff v z).1 hz, hm, h.symm⟩
        · cases h
      · cases h
    · rintro ⟨z, hz, hm, rfl⟩
      rw [(toInt_iff v z).2 hz]
      exact if_pos hm

theorem act_eq {o : OptSpec} (h : o.kind ≠ .help) (v : Str) (d : Dict Str JVal) :
    act o v d = match valueOf o.kind v with
      | some x => .ok (Dict.set d o.dest x)
      | none => .error .refused := by
  unfold act
  split
  · rename_i hk; exact absurd hk h
  · rfl

theorem act_reads {o : OptSpec} {k : Spec.Takes} {v : Str} {x : JVal} (h : o.kind = toKind k) (hx : Spec.Reads k v x)
    (d : Dict Str JVal) : act o v d = .ok (Dict.set d o.dest x) := by
  rw [act_eq (takes_kind h).2.1, h, (valueOf_iff k v x).2 hx]

/-- The option of a name. -/
theorem named_option {e : String × String × Spec.Takes} (he : e ∈ Spec.valued) {n : Str}
    (hn : n = e.1.toList ∨ n = e.2.1.toList) : ∃ o, findOpt n = some o ∧ o.long = e.2.1.toList ∧
      o.kind = toKind e.2.2 ∧ n.head? = some '-' ∧ '=' ∉ n ∧ 2 ≤ n.length ∧ n ≠ ['-', '-'] := by
  obtain ⟨h1, h2, h3, h4, h5, h6, h7, h8, h9, h10⟩ := valued_names e he
  rcases hn with rfl | rfl
  · obtain ⟨o, ho, -, hl, hk⟩ := brief_eq h1
    refine ⟨o, ho, hl, hk, h5, h7, h9, ?_⟩
    intro hc
    rw [hc] at h3
    exact absurd h3 (by decide)
  · obtain ⟨o, ho, -, hl, hk⟩ := brief_eq h2
    refine ⟨o, ho, hl, hk, h6, h8, by omega, ?_⟩
    intro hc
    rw [hc] at h10
    exact absurd h10 (by decide)

theorem named_switch {e : String × String} (he : e ∈ Spec.switches) {n : Str}
    (hn : n = e.1.toList ∨ n = e.2.toList) : ∃ o, findOpt n = some o ∧ o.long = e.2.toList ∧
      o.kind = .flag ∧ n.head? = some '-' ∧ n ≠ ['-', '-'] := by
  obtain ⟨h1, h2, h3, h4, h5, h6, h7, h8⟩ := switch_names e he
  rcases hn with rfl | rfl
  · obtain ⟨o, ho, -, hl, hk⟩ := brief_eq h1
    refine ⟨o, ho, hl, hk, h5, ?_⟩
    intro hc
    rw [hc] at h3
    exact absurd h3 (by decide)
  · obtain ⟨o, ho, -, hl, hk⟩ := brief_eq h2
    refine ⟨o, ho, hl, hk, h6, ?_⟩
    intro hc
    rw [hc] at h8
    exact absurd h8 (by decide)

theorem chain_takes {o : OptSpec} (h : o.takes = true) (v : Str) : chain o v = some ([], o, some v) := by
  cases v with
  | nil => unfold chain; rw [if_pos h]
  | cons c r => unfold chain; rw [if_pos h]

theorem resolve_takes {o : OptSpec} (h : o.takes = true) (b : Bool) (v : Str) :
    resolve o b (some v) = some ([], o, some v) := by
  unfold resolve
  cases b
  · exact chain_takes h v
  · dsimp only
    rw [if_pos rfl, if_pos h]

/-! ### shortened names -/

theorem long_listed : ∀ p ∈ names, isLong p.1 = true → ∃ l ∈ Spec.longNames, p.1 = l.toList := by decide +kernel

theorem switch_eq : ∀ e ∈ Spec.switches, '=' ∉ e.2.toList := by decide +kernel

theorem names_nodup : (names.map (·.1)).Nodup := by decide +kernel

theorem filterMap_one {α β : Type} {l : List α} {f : α → Option β} {e : α} {b : β} (hnd : l.Nodup) (he : e ∈ l)
    (hb : f e = some b) (hno : ∀ x ∈ l, x ≠ e → f x = none) : l.filterMap f = [b] := by
  induction l with
  | nil => cases he
  | cons x l ih =>
    rw [List.nodup_cons] at hnd
    rcases List.mem_cons.1 he with rfl | he
    · rw [List.filterMap_cons_some hb]
      congr 1
      rw [List.filterMap_eq_nil_iff]
      intro y hy
      exact hno y (List.mem_cons_of_mem _ hy) fun h => hnd.1 (h ▸ hy)
    · rw [List.filterMap_cons_none (hno x List.mem_cons_self fun h => hnd.1 (h ▸ he))]
      exact ih hnd.2 he fun y hy => hno y (List.mem_cons_of_mem _ hy)

/-- A shortened name is taken for the option. -/
theorem classify_short {n : Str} {full : String} {o : OptSpec} (h : Spec.Shortens n full)
    (ho : findOpt full.toList = some o) (hf : '=' ∉ full.toList) :
    classify n = some (.opt o true none) ∧ (∀ v, classify (n ++ '=' :: v) = some (.opt o true (some v))) ∧
      n ≠ ['-', '-'] := by
  obtain ⟨hp, hlen, hne, hpre, hun⟩ := h
  have hlong : isLong n = true := List.isPrefixOf_iff_prefix.2 hp
  obtain ⟨t, rfl⟩ := hp
  have hn : '=' ∉ ['-', '-'] ++ t := fun hc => hf (hpre.subset hc)
  have hmem := find_mem ho
  have hnf : findOpt (['-', '-'] ++ t) = none := by
    refine find_none fun p hp he => ?_
    obtain ⟨l, hl, hl2⟩ := long_listed p hp (by rw [he]; exact hlong)
    have := hun l hl (by rw [← hl2, he])
    rw [← he, hl2, this] at hne
    exact hne rfl
  have hcand : ∀ s : Str, ∀ w, splitEq s = (['-', '-'] ++ t, w) → isLong s = true →
      candidates s = [.opt o true w] := by
    intro s w hs hl
    unfold candidates
    rw [if_pos hl, hs]
    refine filterMap_one (e := (full.toList, o)) (List.Nodup.of_map _ names_nodup) hmem ?_ ?_
    · rw [if_pos (List.isPrefixOf_iff_prefix.2 hpre)]
    · intro p hpm hpne
      rw [if_neg]
      intro hc
      have hc := List.isPrefixOf_iff_prefix.1 hc
      have hlp : isLong p.1 = true := List.isPrefixOf_iff_prefix.2 (List.IsPrefix.trans ⟨t, rfl⟩ hc)
      obtain ⟨l, hl1, hl2⟩ := long_listed p hpm hlp
      have := hun l hl1 (by rw [← hl2]; exact hc)
      have h1 : p.1 = full.toList := by rw [hl2, this]
      exact hpne (List.inj_on_of_nodup_map names_nodup hpm hmem h1)
  have ht : t ≠ [] := by rintro rfl; exact absurd hlen (by decide)
  refine ⟨?_, ?_, ?_⟩
  · show classify ('-' :: '-' :: t) = _
    rw [classify_cons]
    change findOpt ('-' :: '-' :: t) = none at hnf
    rw [hnf]
    dsimp only
    rw [if_neg (by intro hc; cases hc)]
    have h2 : withEq ('-' :: '-' :: t) = none := by
      unfold withEq
      rw [show splitEq ('-' :: '-' :: t) = ('-' :: '-' :: t, none) from splitEq_none _ hn]
    rw [h2]
    dsimp only
    rw [hcand ('-' :: '-' :: t) none (splitEq_none _ hn) hlong]
  · intro v
    show classify ('-' :: ('-' :: t ++ '=' :: v)) = _
    rw [classify_cons]
    have h1 : findOpt ('-' :: ('-' :: t ++ '=' :: v)) = none := by
      refine find_none fun p hp he => ?_
      have := (option_chars p hp).1
      rw [he] at this
      exact this (by simp)
    rw [h1]
    dsimp only
    rw [if_neg (by intro hc; cases hc)]
    have hs : splitEq ('-' :: ('-' :: t ++ '=' :: v)) = (['-', '-'] ++ t, some v) := splitEq_equal (['-', '-'] ++ t) v hn
    have h2 : withEq ('-' :: ('-' :: t ++ '=' :: v)) = none := by
      unfold withEq
      rw [hs]
      dsimp only
      rw [hnf]
      rfl
    rw [h2]
    dsimp only
    rw [hcand _ _ hs rfl]
  · intro hc
    apply ht
    simpa using hc

/-- Each item is read as one setting. -/
theorem item_read {w : Spec.Written} {k : Str} {x : JVal} (h : Spec.Sets w k x) : ∃ toks : List (Str × Tok),
    (∀ rest, classifyAll (w.words ++ rest) = (classifyAll rest).map fun l => toks ++ l) ∧
    ∀ l d extra, consume (toks ++ l) d extra = consume l (Dict.set d k x) extra := by
  cases w with
  | apart n v =>
    obtain ⟨e, he, hn, hk, hx, hv⟩ := h
    obtain ⟨o, ho, hl, hkind, hh, -, -, hnd⟩ := named_option he hn
    have ht := takes_kind hkind
    refine ⟨[(n, .opt o (isLong n) none), (v, .arg)], ?_, ?_⟩
    · intro rest
      show classifyAll (n :: v :: rest) = _
      rw [classifyAll_cons (classify_name hh ho) hnd, classifyAll_cons (classify_value hv).1 (classify_value hv).2]
      cases classifyAll rest <;> rfl
    · intro l d extra
      show consume ((n, .opt o (isLong n) none) :: (v, .arg) :: l) d extra = _
      rw [consume]
      dsimp only [resolve]
      rw [if_pos ht.1]
      dsimp only [actAll, List.foldlM, pure, Except.pure]
      rw [act_reads hkind hx, OptSpec.dest, hl, ← hk]
  | equal n v =>
    obtain ⟨e, he, hn, hk, hx⟩ := h
    obtain ⟨o, ho, hl, hkind, hh, heq, hlen, -⟩ := named_option he hn
    have ht := takes_kind hkind
    refine ⟨[(n ++ '=' :: v, .opt o (isLong n) (some v))], ?_, ?_⟩
    · intro rest
      show classifyAll ((n ++ '=' :: v) :: rest) = _
      rw [classifyAll_cons (classify_equal hh hlen heq ho)]
      · cases classifyAll rest <;> rfl
      · intro hc
        have : '=' ∈ ['-', '-'] := hc ▸ (by simp)
        exact absurd this (by decide)
    · intro l d extra
      show consume ((n ++ '=' :: v, .opt o (isLong n) (some v)) :: l) d extra = _
      rw [consume, resolve_takes ht.1]
      dsimp only [actAll, List.foldlM, pure, Except.pure]
      rw [act_reads hkind hx, OptSpec.dest, hl, ← hk]
  | joined n v =>
    obtain ⟨e, he, hn, hlen, hk, hx, hv, hv2⟩ := h
    obtain ⟨o, ho, hl, hkind, hh, heq, -, -⟩ := named_option he (Or.inl hn)
    have ht := takes_kind hkind
    refine ⟨[(n ++ v, .opt o false (some v))], ?_, ?_⟩
    · intro rest
      show classifyAll ((n ++ v) :: rest) = _
      rw [classifyAll_cons (classify_joined hh hlen ho heq hv hv2)]
      · cases classifyAll rest <;> rfl
      · intro hc
        have := congrArg List.length hc
        rw [List.length_append, hlen] at this
        exact hv (List.length_eq_zero_iff.1 (by simpa using this))
    · intro l d extra
      show consume ((n ++ v, .opt o false (some v)) :: l) d extra = _
      rw [consume, resolve_takes ht.1]
      dsimp only [actAll, List.foldlM, pure, Except.pure]
      rw [act_reads hkind hx, OptSpec.dest, hl, ← hk]
  | switch n =>
    obtain ⟨e, he, hn, hk, hx⟩ := h
    obtain ⟨o, ho, hl, hkind, hh, hnd⟩ := named_switch he hn
    refine ⟨[(n, .opt o (isLong n) none)], ?_, ?_⟩
    · intro rest
      show classifyAll (n :: rest) = _
      rw [classifyAll_cons (classify_name hh ho) hnd]
      cases classifyAll rest <;> rfl
    · intro l d extra
      show consume ((n, .opt o (isLong n) none) :: l) d extra = _
      rw [consume]
      have ht : o.takes = false := by unfold OptSpec.takes; rw [hkind]
      dsimp only [resolve]
      rw [ht, if_neg (by decide)]
      dsimp only [actAll, List.foldlM, pure, Except.pure]
      rw [act_eq (by rw [hkind]; decide), hkind]
      dsimp only [valueOf]
      rw [OptSpec.dest, hl, ← hk, hx]
  | shortened n v =>
    obtain ⟨e, he, hn, hk, hx, hv⟩ := h
    obtain ⟨o, ho, hl, hkind, hh, heq, -, -⟩ := named_option he (Or.inr rfl)
    have ht := takes_kind hkind
    obtain ⟨hc, -, hnd⟩ := classify_short hn ho heq
    refine ⟨[(n, .opt o true none), (v, .arg)], ?_, ?_⟩
    · intro rest
      show classifyAll (n :: v :: rest) = _
      rw [classifyAll_cons hc hnd, classifyAll_cons (classify_value hv).1 (classify_value hv).2]
      cases classifyAll rest <;> rfl
    · intro l d extra
      show consume ((n, .opt o true none) :: (v, .arg) :: l) d extra = _
      rw [consume]
      dsimp only [resolve]
      rw [if_pos ht.1]
      dsimp only [actAll, List.foldlM, pure, Except.pure]
      rw [act_reads hkind hx, OptSpec.dest, hl, ← hk]
  | shortenedEqual n v =>
    obtain ⟨e, he, hn, hk, hx⟩ := h
    obtain ⟨o, ho, hl, hkind, hh, heq, -, -⟩ := named_option he (Or.inr rfl)
    have ht := takes_kind hkind
    obtain ⟨-, hc, -⟩ := classify_short hn ho heq
    refine ⟨[(n ++ '=' :: v, .opt o true (some v))], ?_, ?_⟩
    · intro rest
      show classifyAll ((n ++ '=' :: v) :: rest) = _
      rw [classifyAll_cons (hc v)]
      · cases classifyAll rest <;> rfl
      · intro hc
        have : '=' ∈ ['-', '-'] := hc ▸ (by simp)
        exact absurd this (by decide)
    · intro l d extra
      show consume ((n ++ '=' :: v, .opt o true (some v)) :: l) d extra = _
      rw [consume, resolve_takes ht.1]
      dsimp only [actAll, List.foldlM, pure, Except.pure]
      rw [act_reads hkind hx, OptSpec.dest, hl, ← hk]
  | shortenedSwitch n =>
    obtain ⟨e, he, hn, hk, hx⟩ := h
    obtain ⟨o, ho, hl, hkind, hh, hnd⟩ := named_switch he (Or.inr rfl)
    obtain ⟨hc, -, hnd⟩ := classify_short hn ho (switch_eq e he)
    refine ⟨[(n, .opt o true none)], ?_, ?_⟩
    · intro rest
      show classifyAll (n :: rest) = _
      rw [classifyAll_cons hc hnd]
      cases classifyAll rest <;> rfl
    · intro l d extra
      show consume ((n, .opt o true none) :: l) d extra = _
      rw [consume]
      have ht : o.takes = false := by unfold OptSpec.takes; rw [hkind]
      dsimp only [resolve]
      rw [ht, if_neg (by decide)]
      dsimp only [actAll, List.foldlM, pure, Except.pure]
      rw [act_eq (by rw [hkind]; decide), hkind]
      dsimp only [valueOf]
      rw [OptSpec.dest, hl, ← hk, hx]

/-- The arguments of a command. -/
def wordsOf (items : List (Spec.Written × Str × JVal)) : List Str := items.flatMap fun q => q.1.words

/-- the settings made, one after the other. -/
def settle (items : List (Spec.Written × Str × JVal)) (d : Dict Str JVal) : Dict Str JVal :=
  items.foldl (fun d q => Dict.set d q.2.1 q.2.2) d

theorem items_read (items : List (Spec.Written × Str × JVal)) (h : ∀ q ∈ items, Spec.Sets q.1 q.2.1 q.2.2) :
    ∃ toks : List (Str × Tok),
      (∀ rest, classifyAll (wordsOf items ++ rest) = (classifyAll rest).map fun l => toks ++ l) ∧
      ∀ l d extra, consume (toks ++ l) d extra = consume l (settle items d) extra := by
  induction items with
  | nil =>
    refine ⟨[], fun rest => ?_, fun l d extra => rfl⟩
    show classifyAll rest = _
    cases classifyAll rest <;> rfl
  | cons q items ih =>
    obtain ⟨t1, h1, h2⟩ := item_read (h q List.mem_cons_self)
    obtain ⟨t2, h3, h4⟩ := ih fun x hx => h x (List.mem_cons_of_mem _ hx)
    refine ⟨t1 ++ t2, fun rest => ?_, fun l d extra => ?_⟩
    · show classifyAll ((q.1.words ++ wordsOf items) ++ rest) = _
      rw [List.append_assoc, h1, h3]
      cases classifyAll rest
      · rfl
      · show some (t1 ++ (t2 ++ _)) = some (t1 ++ t2 ++ _)
        rw [List.append_assoc]
    · rw [List.append_assoc, h2, h4]
      rfl

theorem settle_get (items : List (Spec.Written × Str × JVal)) (d : Dict Str JVal) (k : Str) :
    (∀ x, Spec.LastGiven items k x → Dict.get? (settle items d) k = some x) ∧
    ((∀ q ∈ items, q.2.1 ≠ k) → Dict.get? (settle items d) k = Dict.get? d k) := by
  induction items generalizing d with
  | nil =>
    constructor
    · rintro x ⟨pre, w, post, h, -⟩
      exact absurd h (by simp)
    · intro _; rfl
  | cons q items ih =>
    constructor
    · rintro x ⟨pre, w, post, h, hn⟩
      cases pre with
      | nil =>
        rw [List.nil_append] at h
        injection h with h1 h2
        subst h1 h2
        show Dict.get? (settle items (Dict.set d k x)) k = some x
        rw [(ih (Dict.set d k x)).2 hn, Dict.get?_set, if_pos rfl]
      | cons p pre =>
        rw [List.cons_append] at h
        injection h with h1 h2
        exact (ih _).1 x ⟨pre, w, post, h2, hn⟩
    · intro h
      show Dict.get? (settle items (Dict.set d q.2.1 q.2.2)) k = _
      rw [(ih _).2 fun x hx => h x (List.mem_cons_of_mem _ hx), Dict.get?_set, if_neg (h q List.mem_cons_self)]

theorem parse_items (items : List (Spec.Written × Str × JVal)) (h0 : items ≠ [])
    (h : ∀ q ∈ items, Spec.Sets q.1 q.2.1 q.2.2) : parseArgs (wordsOf items) = .ok (some (settle items defaults)) := by
  obtain ⟨toks, h1, h2⟩ := items_read items h
  have hne : wordsOf items ≠ [] := by
    cases items with
    | nil => exact absurd rfl h0
    | cons q items =>
      intro he
      have : q.1.words = [] := (List.append_eq_nil_iff.1 he).1
      revert this
      cases q.1 <;> intro this <;> cases this
  have h3 := h1 []
  rw [List.append_nil] at h3
  unfold parseArgs
  rw [if_neg hne, h3]
  have h4 := h2 [] defaults false
  show (match consume (toks ++ []) defaults false with
      | .error .help => _
      | .error .refused => _
      | .ok (_, true) => _
      | .ok (d, false) => _) = _
  rw [h4]
  rfl

end ArgParse

/-- **C140.** The options written on a command line, in whatever order and spelling (`-s 6`, `--start 6`, `-s=6`,
`--start=6`, `-s6`), reach the parameters they name: each has the last value it was given, read as a number where the
option takes a number; options not given have their initial value. -/
theorem written_options (items : List (Spec.Written × Str × JVal)) (h0 : items ≠ [])
    (h : ∀ q ∈ items, Spec.Sets q.1 q.2.1 q.2.2) :
    ∃ d, parseArgs (items.flatMap fun q => q.1.words) = .ok (some d) ∧
      (∀ k x, Spec.LastGiven items k x → Dict.get? d k = some x) ∧
      (∀ p ∈ Spec.initially, (∀ q ∈ items, q.2.1 ≠ p.1.toList) → Dict.get? d p.1.toList = some p.2) ∧
      (∀ e ∈ Spec.valued, (e.2.1.toList).drop 2 ∉ Spec.initially.map (fun p => p.1.toList) →
        (∀ q ∈ items, q.2.1 ≠ (e.2.1.toList).drop 2) → Dict.get? d ((e.2.1.toList).drop 2) = some .null) := by
  refine ⟨settle items defaults, parse_items items h0 h, ?_, ?_, ?_⟩
  · intro k x hk
    exact (settle_get items defaults k).1 x hk
  · intro p hp hq
    rw [(settle_get items defaults _).2 hq]
    exact defaults_get.1 p hp
  · intro e he hi hq
    rw [(settle_get items defaults _).2 hq]
    exact (defaults_get.2 e he).resolve_left hi

/-- C140: the order of different options does not matter. -/
theorem written_order (items items' : List (Spec.Written × Str × JVal)) (h0 : items ≠ [])
    (h : ∀ q ∈ items, Spec.Sets q.1 q.2.1 q.2.2) (hnd : (items.map fun q => q.2.1).Nodup) (hp : items.Perm items') :
    ∃ d d', parseArgs (items.flatMap fun q => q.1.words) = .ok (some d) ∧
      parseArgs (items'.flatMap fun q => q.1.words) = .ok (some d') ∧ ∀ k, Dict.get? d k = Dict.get? d' k := by
  have h0' : items' ≠ [] := by
    rintro rfl
    exact h0 hp.eq_nil
  have h' : ∀ q ∈ items', Spec.Sets q.1 q.2.1 q.2.2 := fun q hq => h q (hp.mem_iff.2 hq)
  have hnd' : (items'.map fun q => q.2.1).Nodup := (hp.map _).nodup_iff.1 hnd
  have last : ∀ l : List (Spec.Written × Str × JVal), (l.map fun q => q.2.1).Nodup → ∀ q ∈ l,
      Spec.LastGiven l q.2.1 q.2.2 := by
    intro l hl q hq
    obtain ⟨pre, post, rfl⟩ := List.append_of_mem hq
    refine ⟨pre, q.1, post, rfl, ?_⟩
    intro p hpm he
    rw [List.map_append, List.map_cons, List.nodup_append] at hl
    exact (List.nodup_cons.1 hl.2.1).1 (List.mem_map.2 ⟨p, hpm, he⟩)
  refine ⟨_, _, parse_items items h0 h, parse_items items' h0' h', ?_⟩
  intro k
  by_cases hk : ∃ q ∈ items, q.2.1 = k
  · obtain ⟨q, hq, rfl⟩ := hk
    rw [(settle_get items _ _).1 _ (last items hnd q hq),
      (settle_get items' _ _).1 _ (last items' hnd' q (hp.mem_iff.1 hq))]
  · push Not at hk
    rw [(settle_get items _ _).2 hk, (settle_get items' _ _).2 fun q hq => hk q (hp.mem_iff.2 hq)]

namespace Spec
/-- The names of the options that a command file can also give. -/
def optName : Opt → String
  | .tstart => "start"
  | .tend => "end"
  | .dataTime => "dataTime"
  | .dataDate => "dataDate"
  | .fmap => "fmap"
  | .ext => "ext"
  | .format => "format"
  | .namePrefix => "namePrefix"
  | .scaleFactor => "scaleFactor"
  | .offset => "offset"
  | .validMin => "validMin"
  | .validMax => "validMax"
  | .valueFormat => "valueFormat"
  | .outputStepUnits => "outputStepUnits"
  | .intertableDir => "intertableDir"
  | .geopotentialDir => "geopotentialDir"
end Spec

namespace ArgParse

/-- is the value a number? -/
def numeric : Spec.Takes → Bool
  | .text => false
  | .number => true
  | .oneOf _ => false
  | .numberOf _ => true

/-- is the option a number? -/
def numberOpt : Opt → Bool
  | .tstart | .tend | .dataTime | .dataDate | .fmap | .ext => true
  | _ => false

theorem opt_kinds (o : Opt) : (∀ e ∈ Spec.valued, (e.2.1.toList).drop 2 = (Spec.optName o).toList →
    numeric e.2.2 = numberOpt o) ∧ ∀ e ∈ Spec.switches, (e.2.toList).drop 2 ≠ (Spec.optName o).toList := by
  cases o <;> decide +kernel

theorem reads_shape {k : Spec.Takes} {v : Str} {x : JVal} (h : Spec.Reads k v x) :
    (numeric k = true → ∃ z, x = .int z) ∧ (numeric k = false → ∃ s, x = .str s) := by
  cases k with
  | text => exact ⟨(by intro hc; cases hc), fun _ => ⟨v, h⟩⟩
  | number =>
    obtain ⟨z, -, rfl⟩ := h
    exact ⟨fun _ => ⟨z, rfl⟩, fun hc => by cases hc⟩
  | oneOf l => exact ⟨(by intro hc; cases hc), fun _ => ⟨v, h.2⟩⟩
  | numberOf l =>
    obtain ⟨z, -, -, rfl⟩ := h
    exact ⟨fun _ => ⟨z, rfl⟩, fun hc => by cases hc⟩

theorem sets_shape {w : Spec.Written} {o : Opt} {x : JVal} (h : Spec.Sets w (Spec.optName o).toList x) :
    (numberOpt o = true → ∃ z, x = .int z) ∧ (numberOpt o = false → ∃ s, x = .str s) := by
  cases w with
  | apart n v =>
    obtain ⟨e, he, -, hk, hx, -⟩ := h
    rw [← (opt_kinds o).1 e he hk.symm]
    exact reads_shape hx
  | equal n v =>
    obtain ⟨e, he, -, hk, hx⟩ := h
    rw [← (opt_kinds o).1 e he hk.symm]
    exact reads_shape hx
  | joined n v =>
    obtain ⟨e, he, -, -, hk, hx, -⟩ := h
    rw [← (opt_kinds o).1 e he hk.symm]
    exact reads_shape hx
  | switch n =>
    obtain ⟨e, he, -, hk, -⟩ := h
    exact absurd hk.symm ((opt_kinds o).2 e he)
  | shortened n v =>
    obtain ⟨e, he, -, hk, hx, -⟩ := h
    rw [← (opt_kinds o).1 e he hk.symm]
    exact reads_shape hx
  | shortenedEqual n v =>
    obtain ⟨e, he, -, hk, hx⟩ := h
    rw [← (opt_kinds o).1 e he hk.symm]
    exact reads_shape hx
  | shortenedSwitch n =>
    obtain ⟨e, he, -, hk, -⟩ := h
    exact absurd hk.symm ((opt_kinds o).2 e he)

theorem cli_get {d : Dict Str JVal} {o : Opt} {x : JVal} (h : Dict.get? d (Spec.optName o).toList = some x)
    (h1 : numberOpt o = true → ∃ z, x = .int z) (h2 : numberOpt o = false → ∃ s, x = .str s) :
    Spec.onCommandLine (cliOf d) o = some x := by
  have hi : ∀ k : String, Dict.get? d k.toList = some x → (∃ z, x = .int z) → (asInt d k).map JVal.int = some x := by
    rintro k hk ⟨z, rfl⟩
    unfold asInt
    rw [hk]
    rfl
  have ht : ∀ k : String, Dict.get? d k.toList = some x → (∃ s, x = .str s) → (asText d k).map JVal.str = some x := by
    rintro k hk ⟨s, rfl⟩
    unfold asText
    rw [hk]
    rfl
  cases o
  all_goals first
    | exact hi _ h (h1 rfl)
    | exact ht _ h (h2 rfl)

end ArgParse

/-- C140 with the command file: an option written on the command line has, in the run, the value written last, whatever
the command file says (the values that mean "not given" are those of C32). -/
theorem written_used (items : List (Spec.Written × Str × JVal)) (h : ∀ q ∈ items, Spec.Sets q.1 q.2.1 q.2.2) (o : Opt)
    (x : JVal) (hx : Spec.LastGiven items (Spec.optName o).toList x) (hc : Spec.confusing o ≠ some x) (j : Json)
    (tblDir geoDir : Str) : ∃ d, parseArgs (items.flatMap fun q => q.1.words) = .ok (some d) ∧
      optValue (cliOf d) j tblDir geoDir o = .ok x := by
  have h0 : items ≠ [] := by
    rintro rfl
    obtain ⟨pre, w, post, he, -⟩ := hx
    exact absurd he (by simp)
  refine ⟨_, parse_items items h0 h, ?_⟩
  have hg := (settle_get items defaults _).1 x hx
  obtain ⟨pre, w, post, he, -⟩ := hx
  have hs : Spec.Sets w (Spec.optName o).toList x := h (w, _, x) (by rw [he]; exact List.mem_append_right _ List.mem_cons_self)
  have := sets_shape hs
  exact C32_command_line_wins _ j tblDir geoDir o x (cli_get hg this.1 this.2) hc

/-! ## C141: refusals -/

namespace Spec
/-- An argument that is no option: it does not start with a dash. -/
def Loose (u : Str) : Prop := u.head? ≠ some '-'

/-- An argument that looks like an option but is none: neither a name nor the beginning of one, also up to an equals
sign, no text attached to a short name, no number, no blank. -/
def Unknown (u : Str) : Prop :=
  u.head? = some '-' ∧ u ≠ ['-'] ∧ ' ' ∉ u ∧ ¬ NegDecimal u ∧
    ∀ n : String, (n = "-h" ∨ n = "--help" ∨ (∃ e ∈ valued, n = e.1 ∨ n = e.2.1) ∨ ∃ e ∈ switches, n = e.1 ∨ n = e.2) →
      ¬ (u.takeWhile (· ≠ '=')) <+: n.toList ∧ u.take 2 ≠ n.toList
end Spec

namespace ArgParse

theorem names_documented : ∀ p ∈ names, ∃ n : String, p.1 = n.toList ∧
    (n = "-h" ∨ n = "--help" ∨ (∃ e ∈ Spec.valued, n = e.1 ∨ n = e.2.1) ∨ ∃ e ∈ Spec.switches, n = e.1 ∨ n = e.2) := by
  have key : ∀ p ∈ names, p.1 = "-h".toList ∨ p.1 = "--help".toList ∨
      (∃ e ∈ Spec.valued, p.1 = e.1.toList ∨ p.1 = e.2.1.toList) ∨
      ∃ e ∈ Spec.switches, p.1 = e.1.toList ∨ p.1 = e.2.toList := by
    decide +kernel
  intro p hp
  rcases key p hp with h | h | ⟨e, he, h | h⟩ | ⟨e, he, h | h⟩
  · exact ⟨_, h, Or.inl rfl⟩
  · exact ⟨_, h, Or.inr (Or.inl rfl)⟩
  · exact ⟨_, h, Or.inr (Or.inr (Or.inl ⟨e, he, Or.inl rfl⟩))⟩
  · exact ⟨_, h, Or.inr (Or.inr (Or.inl ⟨e, he, Or.inr rfl⟩))⟩
  · exact ⟨_, h, Or.inr (Or.inr (Or.inr ⟨e, he, Or.inl rfl⟩))⟩
  · exact ⟨_, h, Or.inr (Or.inr (Or.inr ⟨e, he, Or.inr rfl⟩))⟩

theorem splitEq_fst (s : Str) : (splitEq s).1 = s.takeWhile (· ≠ '=') := by
  unfold splitEq
  split
  · rename_i h
    have := List.takeWhile_append_dropWhile (p := fun x => decide (x ≠ '=')) (l := s)
    rw [h, List.append_nil] at this
    exact this.symm
  · rfl

theorem isNeg_of (s : Str) (h : isNegNumber s = true) : Spec.NegDecimal s := by
  have all : ∀ a : Str, allDigits a = true → a ≠ [] ∧ ∀ c ∈ a, '0' ≤ c ∧ c ≤ '9' := by
    intro a h
    unfold allDigits at h
    rw [Bool.and_eq_true, decide_eq_true_eq, List.all_eq_true] at h
    exact ⟨h.1, fun c hc => (digit_iff c).1 (h.2 c hc)⟩
  cases s with
  | nil => cases h
  | cons c r =>
    by_cases hc : c = '-'
    · subst hc
      have h : (allDigits r || isFraction (r.dropWhile Str.isDigitChar)) = true := h
      rw [Bool.or_eq_true] at h
      rcases h with h | h
      · obtain ⟨h0, h1⟩ := all r h
        exact ⟨r, [], by simpa using h1, Or.inl ⟨rfl, h0⟩⟩
      · cases hd : r.dropWhile Str.isDigitChar with
        | nil => rw [hd] at h; cases h
        | cons q f =>
          rw [hd] at h
          by_cases hq : q = '.'
          · subst hq
            obtain ⟨h0, h1⟩ := all f h
            refine ⟨r.takeWhile Str.isDigitChar, f, ?_, Or.inr ⟨?_, h0⟩⟩
            · intro x hx
              rcases List.mem_append.1 hx with hx | hx
              · exact (digit_iff x).1 (Str.takeWhile_all r x hx)
              · exact h1 x hx
            · rw [← hd, List.takeWhile_append_dropWhile]
          · unfold isFraction at h
            split at h
            · rename_i he
              injection he with he _
              exact absurd he hq
            · cases h
    · unfold isNegNumber at h
      split at h
      · rename_i he
        injection he with he _
        exact absurd he hc
      · cases h

theorem withEq_fst {s : Str} {o : OptSpec} {v : Str} (h : withEq s = some (o, v)) :
    (s.takeWhile (· ≠ '='), o) ∈ names := by
  unfold withEq at h
  split at h
  · cases h
  · rw [splitEq_fst] at h
    cases hf : findOpt (s.takeWhile (· ≠ '=')) with
    | none => rw [hf] at h; cases h
    | some o' =>
      rw [hf] at h
      injection h with h
      injection h with h _
      rw [← h]
      exact find_mem hf

theorem takeWhile_prefix_name {u n : Str} (h : u <+: n) : u.takeWhile (· ≠ '=') <+: n :=
  (List.takeWhile_prefix _).trans h

theorem unknown_none {u : Str} (h : Spec.Unknown u) : findOpt u = none ∧ withEq u = none ∧ candidates u = [] ∧
    isNegNumber u = false := by
  obtain ⟨hd, -, hb, hneg, hno⟩ := h
  have hno' : ∀ p ∈ names, ¬ (u.takeWhile (· ≠ '=')) <+: p.1 ∧ u.take 2 ≠ p.1 := by
    intro p hp
    obtain ⟨n, hn, hin⟩ := names_documented p hp
    rw [hn]
    exact hno n hin
  refine ⟨?_, ?_, ?_, ?_⟩
  · apply find_none
    intro p hp he
    exact (hno' p hp).1 (he ▸ List.takeWhile_prefix _)
  · cases hw : withEq u with
    | none => rfl
    | some q =>
      have := withEq_fst (o := q.1) (v := q.2) hw
      exact absurd (List.prefix_refl _) (hno' _ this).1
  · unfold candidates
    split
    · rw [List.filterMap_eq_nil_iff]
      intro p hp
      rw [splitEq_fst, if_neg]
      intro hpre
      exact (hno' p hp).1 (List.isPrefixOf_iff_prefix.1 hpre)
    · rw [List.filterMap_eq_nil_iff]
      intro p hp
      rw [if_neg (fun e => (hno' p hp).2 e.symm), if_neg]
      intro hpre
      exact (hno' p hp).1 (takeWhile_prefix_name (List.isPrefixOf_iff_prefix.1 hpre))
  · by_contra hc
    rw [Bool.not_eq_false] at hc
    exact hneg (isNeg_of u hc)

theorem classify_unknown {u : Str} (h : Spec.Unknown u) : classify u = some .unknown ∧ u ≠ ['-', '-'] := by
  have hu := h
  obtain ⟨hf, hw, hc, hn⟩ := unknown_none h
  obtain ⟨hd, h1, hb, -, hno⟩ := h
  obtain ⟨r, rfl⟩ := head_cons hd
  constructor
  · rw [classify_cons, hf]
    dsimp only
    rw [if_neg (by rintro rfl; exact h1 rfl), hw, hc]
    dsimp only
    rw [if_neg]
    rintro (he | he)
    · rw [hn] at he; cases he
    · exact hb he
  · intro he
    refine (hno "--help" (Or.inr (Or.inl rfl))).1 ?_
    rw [he]
    decide

/-- once an argument was left over, the command is refused. -/
theorem consume_extra (toks : List (Str × Tok)) (ht : ∀ t ∈ toks, t.2 = .arg ∨ t.2 = .unknown) (d : Dict Str JVal) (e : Bool)
    (he : e = true ∨ toks ≠ []) (l : List (Str × Tok)) :
    consume (toks ++ l) d e = consume l d true := by
  induction toks generalizing e with
  | nil =>
    rcases he with rfl | he
    · rfl
    · exact absurd rfl he
  | cons t toks ih =>
    obtain ⟨s, t⟩ := t
    have := ht (s, t) List.mem_cons_self
    have ih' := ih (fun x hx => ht x (List.mem_cons_of_mem _ hx)) true (Or.inl rfl)
    dsimp only at this
    rcases this with rfl | rfl
    · rw [List.cons_append, consume]; exact ih'
    · rw [List.cons_append, consume]; exact ih'

theorem parse_of {argv : List Str} (h0 : argv ≠ []) {toks : List (Str × Tok)} (h : classifyAll argv = some toks) :
    parseArgs argv = match consume toks defaults false with
      | .error .help => .ok none
      | .error .refused => .error (.app 10000)
      | .ok (_, true) => .error (.app 10000)
      | .ok (d, false) => .ok (some d) := by
  unfold parseArgs
  rw [if_neg h0, h]
  rfl

end ArgParse

/-- **C141.** An argument that belongs to no option — a word on its own, or something that looks like an option but is
none — anywhere among the options: the command is refused with error 10000. -/
theorem stray_refused (items items' : List (Spec.Written × Str × JVal)) (h : ∀ q ∈ items, Spec.Sets q.1 q.2.1 q.2.2)
    (h' : ∀ q ∈ items', Spec.Sets q.1 q.2.1 q.2.2) (strays : List Str) (h0 : strays ≠ [])
    (hs : ∀ u ∈ strays, Spec.Loose u ∨ Spec.Unknown u) :
    parseArgs ((items.flatMap fun q => q.1.words) ++ strays ++ items'.flatMap fun q => q.1.words) =
      .error (.app 10000) := by
  obtain ⟨t1, h1, h2⟩ := items_read items h
  obtain ⟨t2, h3, h4⟩ := items_read items' h'
  have hm : ∃ t : List (Str × Tok), t ≠ [] ∧ (∀ x ∈ t, x.2 = .arg ∨ x.2 = .unknown) ∧
      ∀ rest, classifyAll (strays ++ rest) = (classifyAll rest).map fun l => t ++ l := by
    clear h1 h2 h3 h4
    induction strays with
    | nil => exact absurd rfl h0
    | cons u strays ih =>
      obtain ⟨t, ht, hc, hd⟩ : ∃ t, (t = Tok.arg ∨ t = .unknown) ∧ classify u = some t ∧ u ≠ ['-', '-'] := by
        rcases hs u List.mem_cons_self with hl | hu
        · exact ⟨.arg, Or.inl rfl, classify_value (Or.inl hl)⟩
        · exact ⟨.unknown, Or.inr rfl, classify_unknown hu⟩
      by_cases hn : strays = []
      · subst hn
        refine ⟨[(u, t)], by simp, by simpa using ht, fun rest => ?_⟩
        show classifyAll (u :: rest) = _
        rw [classifyAll_cons hc hd]
        cases classifyAll rest <;> rfl
      · obtain ⟨ts, -, ht2, hall⟩ := ih hn fun x hx => hs x (List.mem_cons_of_mem _ hx)
        refine ⟨(u, t) :: ts, by simp, ?_, fun rest => ?_⟩
        · intro x hx
          rcases List.mem_cons.1 hx with rfl | hx
          · exact ht
          · exact ht2 x hx
        · show classifyAll (u :: (strays ++ rest)) = _
          rw [classifyAll_cons hc hd, hall]
          cases classifyAll rest <;> rfl
  obtain ⟨ts, ht0, ht1, hall⟩ := hm
  have hc : classifyAll ((items.flatMap fun q => q.1.words) ++ strays ++ items'.flatMap fun q => q.1.words) =
      some (t1 ++ (ts ++ (t2 ++ []))) := by
    have e1 := h1 (strays ++ wordsOf items')
    have e2 := hall (wordsOf items')
    have e3 := h3 []
    rw [List.append_nil] at e3
    rw [e3] at e2
    rw [e2] at e1
    rw [List.append_assoc]
    exact e1
  rw [parse_of (by
    intro he
    exact h0 (List.append_eq_nil_iff.1 (List.append_eq_nil_iff.1 he).1).2) hc, h2,
    consume_extra ts ht1 _ false (Or.inr ht0), h4]
  rfl

/-- C141: a value that the option does not take (not a whole number, not one of the choices) is refused with error 10000,
whatever follows. -/
theorem bad_value_refused (items : List (Spec.Written × Str × JVal)) (h : ∀ q ∈ items, Spec.Sets q.1 q.2.1 q.2.2)
    (e : String × String × Spec.Takes) (he : e ∈ Spec.valued) (n v : Str) (hn : n = e.1.toList ∨ n = e.2.1.toList)
    (hv : ∀ x, ¬ Spec.Reads e.2.2 v x) (words : List Str)
    (hw : (words = [n, v] ∧ (v.head? ≠ some '-' ∨ v = ['-'] ∨ Spec.NegDecimal v)) ∨ words = [n ++ '=' :: v])
    (rest : List Str) :
    parseArgs ((items.flatMap fun q => q.1.words) ++ words ++ rest) = .error (.app 10000) := by
  obtain ⟨t1, h1, h2⟩ := items_read items h
  obtain ⟨o, ho, hl, hkind, hh, heq, hlen, hnd⟩ := named_option he hn
  have ht := takes_kind hkind
  have hval : valueOf o.kind v = none := by
    cases hc : valueOf o.kind v with
    | none => rfl
    | some x =>
      rw [hkind] at hc
      exact absurd ((valueOf_iff _ _ _).1 hc) (hv x)
  have hact : ∀ d, act o v d = .error .refused := by
    intro d
    rw [act_eq ht.2.1, hval]
  have hne : (items.flatMap fun q => q.1.words) ++ words ++ rest ≠ [] := by
    intro hc
    have := (List.append_eq_nil_iff.1 (List.append_eq_nil_iff.1 hc).1).2
    rcases hw with ⟨rfl, -⟩ | rfl <;> cases this
  have key : ∃ t : List (Str × Tok), (∀ rest, classifyAll (words ++ rest) = (classifyAll rest).map fun l => t ++ l) ∧
      ∀ l d extra, consume (t ++ l) d extra = .error .refused := by
    rcases hw with ⟨rfl, hv⟩ | rfl
    · refine ⟨[(n, .opt o (isLong n) none), (v, .arg)], ?_, ?_⟩
      · intro rest
        show classifyAll (n :: v :: rest) = _
        rw [classifyAll_cons (classify_name hh ho) hnd, classifyAll_cons (classify_value hv).1 (classify_value hv).2]
        cases classifyAll rest <;> rfl
      · intro l d extra
        show consume ((n, .opt o (isLong n) none) :: (v, .arg) :: l) d extra = _
        rw [consume]
        dsimp only [resolve]
        rw [if_pos ht.1]
        dsimp only [actAll, List.foldlM, pure, Except.pure]
        rw [hact]
    · refine ⟨[(n ++ '=' :: v, .opt o (isLong n) (some v))], ?_, ?_⟩
      · intro rest
        show classifyAll ((n ++ '=' :: v) :: rest) = _
        rw [classifyAll_cons (classify_equal hh hlen heq ho)]
        · cases classifyAll rest <;> rfl
        · intro hc
          have : '=' ∈ ['-', '-'] := hc ▸ (by simp)
          exact absurd this (by decide)
      · intro l d extra
        show consume ((n ++ '=' :: v, .opt o (isLong n) (some v)) :: l) d extra = _
        rw [consume, resolve_takes ht.1]
        dsimp only [actAll, List.foldlM, pure, Except.pure]
        rw [hact]
  obtain ⟨t2, h3, h4⟩ := key
  have hc := h1 (words ++ rest)
  rw [h3] at hc
  rw [List.append_assoc] at hne ⊢
  have hc' : classifyAll ((items.flatMap fun q => q.1.words) ++ (words ++ rest)) = _ := hc
  cases hr : classifyAll rest with
  | none =>
    rw [hr] at hc'
    unfold parseArgs
    rw [if_neg hne, hc']
    rfl
  | some l =>
    rw [hr] at hc'
    rw [parse_of hne hc']
    show (match consume (t1 ++ (t2 ++ l)) defaults false with
      | .error .help => _
      | .error .refused => _
      | .ok (_, true) => _
      | .ok (d, false) => _) = _
    rw [h2, h4]

/-- C141: an option whose value is missing — nothing follows it, or something that starts with a dash and is neither a
dash alone nor a negative number in plain decimal notation — is refused with error 10000, whatever follows. In
particular a negative number in scientific notation cannot follow an option (`-O -1e-3`); it can be attached to it with
an equals sign (`written_options`). -/
theorem missing_value_refused (items : List (Spec.Written × Str × JVal)) (h : ∀ q ∈ items, Spec.Sets q.1 q.2.1 q.2.2)
    (e : String × String × Spec.Takes) (he : e ∈ Spec.valued) (n : Str) (hn : n = e.1.toList ∨ n = e.2.1.toList)
    (rest : List Str) (hr : rest = [] ∨ ∃ v r, rest = v :: r ∧ v.head? = some '-' ∧ v ≠ ['-'] ∧ ¬ Spec.NegDecimal v ∧
      ' ' ∉ v) :
    parseArgs ((items.flatMap fun q => q.1.words) ++ n :: rest) = .error (.app 10000) := by
  obtain ⟨t1, h1, h2⟩ := items_read items h
  obtain ⟨o, ho, hl, hkind, hh, heq, hlen, hnd⟩ := named_option he hn
  have ht := takes_kind hkind
  have hne : (items.flatMap fun q => q.1.words) ++ n :: rest ≠ [] := by
    intro hc
    cases (List.append_eq_nil_iff.1 hc).2
  have hc : classifyAll ((items.flatMap fun q => q.1.words) ++ n :: rest) = _ := h1 (n :: rest)
  rw [classifyAll_cons (classify_name hh ho) hnd] at hc
  have hstop : ∀ l, classifyAll rest = some l → ∀ d extra,
      consume ((n, .opt o (isLong n) none) :: l) d extra = .error .refused := by
    intro l hl d extra
    rw [consume]
    dsimp only [resolve]
    rw [if_pos ht.1]
    have harg : ∀ v l', l ≠ (v, .arg) :: l' := by
      rintro v l' rfl
      rcases hr with rfl | ⟨v', r, rfl, hd, h1, h2, h3⟩
      · cases hl
      · have hv : classifyAll (v' :: r) = if v' = ['-', '-'] then some ((v', .unknown) :: r.map fun x => (x, .arg))
            else match classify v', classifyAll r with
              | some t, some l => some ((v', t) :: l)
              | _, _ => none := rfl
        rw [hl] at hv
        split at hv
        · injection hv with hv
          injection hv with hv _
          injection hv with _ hv
          cases hv
        · split at hv
          · rename_i t l2 hcv hcl
            injection hv with hv
            injection hv with hv _
            injection hv with _ hv
            subst hv
            obtain ⟨w, rfl⟩ := head_cons hd
            rw [classify_cons] at hcv
            split at hcv
            · injection hcv with hcv; cases hcv
            · rw [if_neg (by rintro rfl; exact h1 rfl)] at hcv
              split at hcv
              · injection hcv with hcv; cases hcv
              · split at hcv
                · rename_i t hcand
                  injection hcv with hcv
                  subst hcv
                  have hmem : Tok.arg ∈ candidates ('-' :: w) := by rw [hcand]; exact List.mem_singleton.2 rfl
                  unfold candidates at hmem
                  split at hmem
                  · obtain ⟨p, -, hp⟩ := List.mem_filterMap.1 hmem
                    split at hp
                    · injection hp with hp; cases hp
                    · cases hp
                  · obtain ⟨p, -, hp⟩ := List.mem_filterMap.1 hmem
                    split at hp
                    · injection hp with hp; cases hp
                    · split at hp
                      · injection hp with hp; cases hp
                      · cases hp
                · cases hcv
                · split at hcv
                  · rename_i hor
                    rcases hor with hor | hor
                    · exact h2 (isNeg_of _ hor)
                    · exact h3 hor
                  · injection hcv with hcv; cases hcv
          · cases hv
    split
    · rename_i v l'
      exact absurd rfl (harg v l')
    · rfl
  cases hr2 : classifyAll rest with
  | none =>
    rw [hr2] at hc
    unfold parseArgs
    rw [if_neg hne, hc]
    rfl
  | some l =>
    rw [hr2] at hc
    rw [parse_of hne hc]
    show (match consume (t1 ++ ((n, .opt o (isLong n) none) :: l)) defaults false with
      | .error .help => _
      | .error .refused => _
      | .ok (_, true) => _
      | .ok (d, false) => _) = _
    rw [h2, hstop l hr2]

/-- C141: a command without arguments is refused with error 10000. -/
theorem no_arguments : parseArgs [] = .error (.app 10000) := rfl

/-- `-h` or `--help` after any options prints the help: nothing is run. -/
theorem help_ends (items : List (Spec.Written × Str × JVal)) (h : ∀ q ∈ items, Spec.Sets q.1 q.2.1 q.2.2) (n : Str)
    (hn : n = "-h".toList ∨ n = "--help".toList) :
    parseArgs ((items.flatMap fun q => q.1.words) ++ [n]) = .ok none := by
  obtain ⟨t1, h1, h2⟩ := items_read items h
  have hc : classifyAll ((items.flatMap fun q => q.1.words) ++ [n]) = _ := h1 [n]
  have hne : (items.flatMap fun q => q.1.words) ++ [n] ≠ [] := by
    intro hc
    cases (List.append_eq_nil_iff.1 hc).2
  have key : ∃ l, classifyAll [n] = some l ∧ ∀ d extra, consume l d extra = .error .help := by
    rcases hn with rfl | rfl
    · refine ⟨[("-h".toList, .opt (opt "-h" "--help" .help .null) false none)], by decide +kernel, fun d extra => rfl⟩
    · refine ⟨[("--help".toList, .opt (opt "-h" "--help" .help .null) true none)], by decide +kernel,
        fun d extra => rfl⟩
  obtain ⟨l, hl, hstop⟩ := key
  rw [hl] at hc
  rw [parse_of hne hc]
  show (match consume (t1 ++ l) defaults false with
      | .error .help => _
      | .error .refused => _
      | .ok (_, true) => _
      | .ok (d, false) => _) = _
  rw [h2, hstop]

/-! ## C142: command objects -/

namespace Spec
/-- A setting of a command object: the short name of an option with the value `v` it takes (`x` when read), or the short
name of a switch without value. -/
def Setting (o v : Str) (dest : Str) (x : JVal) : Prop :=
  (∃ e ∈ valued, o = e.1.toList ∧ dest = (e.2.1.toList).drop 2 ∧ v ≠ [] ∧ Reads e.2.2 v x ∧
    (v.head? ≠ some '-' ∨ v = ['-'] ∨ NegDecimal v)) ∨
  (∃ e ∈ switches, o = e.1.toList ∧ dest = (e.2.toList).drop 2 ∧ v = [] ∧ x = .bool true)
end Spec

namespace ArgParse

/-- one setting as written. -/
def writtenAs (p : Str × Str) : Spec.Written := if p.2 = [] then .switch p.1 else .apart p.1 p.2

theorem setting_sets {o v k : Str} {x : JVal} (h : Spec.Setting o v k x) : Spec.Sets (writtenAs (o, v)) k x := by
  rcases h with ⟨e, he, ho, hk, hv, hx, hl⟩ | ⟨e, he, ho, hk, hv, hx⟩
  · unfold writtenAs
    rw [if_neg hv]
    exact ⟨e, he, Or.inl ho, hk, hx, hl⟩
  · unfold writtenAs
    rw [if_pos hv]
    exact ⟨e, he, Or.inl ho, hk, hx⟩

theorem written_words (p : Str × Str) : (writtenAs p).words = p.1 :: (if p.2 = [] then [] else [p.2]) := by
  unfold writtenAs
  by_cases h : p.2 = []
  · rw [if_pos h, if_pos h]; rfl
  · rw [if_neg h, if_neg h]; rfl

theorem shorts_of_dest : (∀ e ∈ Spec.valued, ∀ f ∈ Spec.valued, (e.2.1.toList).drop 2 = (f.2.1.toList).drop 2 →
      e.1.toList = f.1.toList) ∧
    (∀ e ∈ Spec.switches, ∀ f ∈ Spec.switches, (e.2.toList).drop 2 = (f.2.toList).drop 2 → e.1.toList = f.1.toList) ∧
    (∀ e ∈ Spec.valued, ∀ f ∈ Spec.switches, (e.2.1.toList).drop 2 ≠ (f.2.toList).drop 2) := by
  decide +kernel

theorem setting_inj {o o' v v' k : Str} {x x' : JVal} (h : Spec.Setting o v k x) (h' : Spec.Setting o' v' k x') :
    o = o' := by
  rcases h with ⟨e, he, ho, hk, -⟩ | ⟨e, he, ho, hk, -⟩ <;> rcases h' with ⟨f, hf, ho', hk', -⟩ | ⟨f, hf, ho', hk', -⟩
  · rw [ho, ho']; exact shorts_of_dest.1 e he f hf (hk.symm.trans hk')
  · exact absurd (hk.symm.trans hk') (shorts_of_dest.2.2 e he f hf)
  · exact absurd (hk'.symm.trans hk) (shorts_of_dest.2.2 f hf e he)
  · rw [ho, ho']; exact shorts_of_dest.2.1 e he f hf (hk.symm.trans hk')

/-- settings as items. -/
theorem items_of (order : List (Str × Str)) (h : ∀ p ∈ order, ∃ k x, Spec.Setting p.1 p.2 k x) :
    ∃ items : List (Spec.Written × Str × JVal), (∀ q ∈ items, Spec.Sets q.1 q.2.1 q.2.2) ∧
      (items.flatMap fun q => q.1.words) = order.flatMap (fun p => p.1 :: (if p.2 = [] then [] else [p.2])) ∧
      (items = [] ↔ order = []) ∧
      (∀ q ∈ items, ∃ p ∈ order, Spec.Setting p.1 p.2 q.2.1 q.2.2) ∧
      ((order.map (·.1)).Nodup → ∀ p ∈ order, ∃ k x, Spec.Setting p.1 p.2 k x ∧ Spec.LastGiven items k x) := by
  induction order with
  | nil => exact ⟨[], by simp, rfl, by simp, by simp, by simp⟩
  | cons p order ih =>
    obtain ⟨k, x, hp⟩ := h p List.mem_cons_self
    obtain ⟨items, h1, h2, h3, h4, h5⟩ := ih fun q hq => h q (List.mem_cons_of_mem _ hq)
    refine ⟨(writtenAs p, k, x) :: items, ?_, ?_, by simp, ?_, ?_⟩
    · intro q hq
      rcases List.mem_cons.1 hq with rfl | hq
      · exact setting_sets hp
      · exact h1 q hq
    · rw [List.flatMap_cons, List.flatMap_cons, h2, written_words]
    · intro q hq
      rcases List.mem_cons.1 hq with rfl | hq
      · exact ⟨p, List.mem_cons_self, hp⟩
      · obtain ⟨p', hp', hs⟩ := h4 q hq
        exact ⟨p', List.mem_cons_of_mem _ hp', hs⟩
    · intro hnd q hq
      rw [List.map_cons, List.nodup_cons] at hnd
      rcases List.mem_cons.1 hq with rfl | hq
      · refine ⟨k, x, hp, [], writtenAs q, items, rfl, ?_⟩
        intro r hr he
        obtain ⟨p', hp', hs⟩ := h4 r hr
        rw [he] at hs
        exact hnd.1 (List.mem_map.2 ⟨p', hp', setting_inj hs hp⟩)
      · obtain ⟨k', x', hs, pre, w, post, e, hn⟩ := h5 hnd.2 q hq
        exact ⟨k', x', hs, (writtenAs p, k, x) :: pre, w, post, by rw [e]; rfl, hn⟩

theorem reads_unique {k : Spec.Takes} {v : Str} {x y : JVal} (h : Spec.Reads k v x) (h' : Spec.Reads k v y) : x = y := by
  have h1 := (valueOf_iff k v x).2 h
  have h2 := (valueOf_iff k v y).2 h'
  exact Option.some.inj (h1.symm.trans h2)

theorem setting_fun {o v k k' : Str} {x x' : JVal} (h : Spec.Setting o v k x) (h' : Spec.Setting o v k' x') :
    k = k' ∧ x = x' := by
  have hv : ∀ e ∈ Spec.valued, ∀ f ∈ Spec.valued, e.1.toList = f.1.toList →
      (e.2.1.toList).drop 2 = (f.2.1.toList).drop 2 ∧ toKind e.2.2 = toKind f.2.2 := by decide +kernel
  have hs : ∀ e ∈ Spec.switches, ∀ f ∈ Spec.switches, e.1.toList = f.1.toList →
      (e.2.toList).drop 2 = (f.2.toList).drop 2 := by decide +kernel
  rcases h with ⟨e, he, ho, hk, h0, hx, -⟩ | ⟨e, he, ho, hk, h0, hx⟩ <;>
    rcases h' with ⟨f, hf, ho', hk', h0', hx', -⟩ | ⟨f, hf, ho', hk', h0', hx'⟩
  · have := hv e he f hf (ho.symm.trans ho')
    refine ⟨by rw [hk, hk', this.1], ?_⟩
    have h1 := (valueOf_iff _ _ _).2 hx
    have h2 := (valueOf_iff _ _ _).2 hx'
    rw [this.2] at h1
    exact Option.some.inj (h1.symm.trans h2)
  · exact absurd h0' h0
  · exact absurd h0 h0'
  · exact ⟨by rw [hk, hk', hs e he f hf (ho.symm.trans ho')], by rw [hx, hx']⟩

end ArgParse

/-- **C142** (the part that holds). A command object — a text of option/value pairs with placeholders, changed by any
sequence of settings (`with_...`), all of them short names of options with values they take, or switches — runs the
program with each option at the value it was given last (the log level is `ERROR` unless given). What is missing: see
C48, and `log_dir_refused`. -/
theorem command_options_partial {template : Str} {params pairs sets : List (Str × Str)}
    (hnd : (params.map (·.1)).Nodup) (hb : ∀ p ∈ params, Spec.NoBrace p.1 ∧ Spec.NoBrace p.2)
    (hw : ∀ p ∈ pairs, Spec.Word p.1 ∧ Spec.Word p.2)
    (ht : Spec.Trim template template) (hdash : template = [] ∨ template.head? = some '-')
    (hf : Spec.Filled params template (Str.joinBlank (pairs.flatMap fun p => [p.1, p.2])))
    {text : Str} (htext : text = template ∨ text = "pyg2p ".toList ++ template)
    (hsets : ∀ p ∈ sets, Spec.Word p.1 ∧ (p.2 = [] ∨ Spec.Word p.2))
    (hopts : ∀ p ∈ pairs ++ sets, ∃ k x, Spec.Setting p.1 p.2 k x) :
    ∃ d argv parsed, commandInit (some text) params = .ok d ∧
      commandArgv (sets.foldl (fun d p => commandSet d p.1 p.2) d) = .ok argv ∧
      parseArgs argv = .ok (some parsed) ∧
      ∀ o v k x, Spec.LastValue (("-l".toList, "ERROR".toList) :: pairs ++ sets) o v → Spec.Setting o v k x →
        Dict.get? parsed k = some x := by
  obtain ⟨d, order, h1, -, h3, h4, h5⟩ := command_roundtrip_partial hnd hb hw ht hdash hf htext hsets
  have hl : Spec.Setting "-l".toList "ERROR".toList "loggerLevel".toList (.str "ERROR".toList) := by
    refine Or.inl ⟨("-l", "--loggerLevel", .oneOf ["ERROR", "WARNING", "INFO", "DEBUG"]), ?_, rfl, ?_, ?_, ?_, ?_⟩
    · unfold Spec.valued
      simp
    · decide
    · decide
    · exact ⟨by decide, rfl⟩
    · exact Or.inl (by decide)
  have horder : ∀ p ∈ order, ∃ k x, Spec.Setting p.1 p.2 k x := by
    rintro ⟨o, v⟩ hp
    obtain ⟨pre, post, he, -⟩ := (h4 o v).1 hp
    have hm : (o, v) ∈ ("-l".toList, "ERROR".toList) :: pairs ++ sets := by
      rw [he]; exact List.mem_append_right _ List.mem_cons_self
    rcases List.mem_cons.1 (by rwa [List.cons_append] at hm) with hm | hm
    · injection hm with e1 e2
      subst e1 e2
      exact ⟨_, _, hl⟩
    · exact hopts _ hm
  obtain ⟨items, i1, i2, i3, i4, i5⟩ := items_of order horder
  have hne : items ≠ [] := by
    intro hc
    have ho := i3.1 hc
    have : ∃ v, Dict.get? (Dict.ofPairs (("-l".toList, "ERROR".toList) :: pairs ++ sets)) "-l".toList = some v := by
      rw [Dict.get?_ofPairs]
      cases hlp : Dict.lastPair (("-l".toList, "ERROR".toList) :: pairs ++ sets) "-l".toList with
      | some v => exact ⟨v, rfl⟩
      | none =>
        exfalso
        have : Dict.get? (Dict.ofPairs (("-l".toList, "ERROR".toList) :: pairs ++ sets)) "-l".toList = none := by
          rw [Dict.get?_ofPairs, hlp]
        rw [Dict.get?_eq_none_iff] at this
        apply this
        have key : ∀ (l : List (Str × Str)) (d : Dict Str Str), "-l".toList ∈ Dict.keys d →
            "-l".toList ∈ Dict.keys (l.foldl (fun d p => Dict.set d p.1 p.2) d) := by
          intro l
          induction l with
          | nil => intro d h; exact h
          | cons q l ih => intro d h; exact ih _ (Dict.mem_keys_set.2 (Or.inr h))
        exact key (pairs ++ sets) _ (by simp [Dict.set, Dict.keys])
    obtain ⟨v, hv⟩ := this
    have := (h4 _ _).2 ((lastValue_iff_ofPairs _ _ _).2 hv)
    rw [ho] at this
    cases this
  refine ⟨d, _, settle items defaults, h1, h5, ?_, ?_⟩
  · rw [← i2]
    exact parse_items items hne i1
  · intro o v k x hv hs
    obtain ⟨k', x', hs', hlg⟩ := i5 h3 (o, v) ((h4 o v).2 hv)
    obtain ⟨rfl, rfl⟩ := setting_fun hs hs'
    exact (settle_get items defaults _).1 _ hlg

namespace Spec

/-- The methods `with_...` of a command object and the parameter of the program that each sets. -/
def methods : List (String × String) := [
  ("cmdpath", "commandsFile"), ("inputfile", "inputFile"), ("second_input_file", "inputFile2"),
  ("eps", "perturbationNumber"), ("tend", "end"), ("tstart", "start"), ("datatime", "dataTime"),
  ("datadate", "dataDate"), ("ext", "ext"), ("fmap", "fmap"), ("outdir", "outDir"), ("nameprefix", "namePrefix"),
  ("scaleFactor", "scaleFactor"), ("offset", "offset"), ("validMax", "validMax"), ("validMin", "validMin"),
  ("valueFormat", "valueFormat"), ("log_level", "loggerLevel"), ("out_format", "format"),
  ("outputStepUnits", "outputStepUnits"), ("intertable_dir", "intertableDir"),
  ("create_intertable", "createIntertable"), ("parallel", "interpolationParallel")]

/-- `v` is a value for the parameter, `x` when read; switches have none. -/
def ParamValue (param : String) (v : Str) (x : JVal) : Prop :=
  (∃ e ∈ valued, e.2.1 = "--" ++ param ∧ v ≠ [] ∧ Reads e.2.2 v x ∧
    (v.head? ≠ some '-' ∨ v = ['-'] ∨ NegDecimal v)) ∨
  (∃ e ∈ switches, e.2 = "--" ++ param ∧ v = [] ∧ x = .bool true)

end Spec

theorem builder_opts : ∀ q ∈ Spec.methods, ∃ o, ArgParse.builders.lookup q.1 = some o ∧
    (∀ e ∈ Spec.valued, e.2.1 = "--" ++ q.2 → e.1 = o ∧ e.2.1.toList.drop 2 = q.2.toList) ∧
    (∀ e ∈ Spec.switches, e.2 = "--" ++ q.2 → e.1 = o ∧ e.2.toList.drop 2 = q.2.toList) ∧
    ∀ q' ∈ Spec.methods, ArgParse.builders.lookup q'.1 = some o → q'.1 = q.1 := by
  have key : ∀ q ∈ Spec.methods, ((ArgParse.builders.lookup q.1).isSome = true) ∧
      (∀ e ∈ Spec.valued, e.2.1 = "--" ++ q.2 → ArgParse.builders.lookup q.1 = some e.1 ∧ e.2.1.toList.drop 2 = q.2.toList) ∧
      (∀ e ∈ Spec.switches, e.2 = "--" ++ q.2 → ArgParse.builders.lookup q.1 = some e.1 ∧ e.2.toList.drop 2 = q.2.toList) ∧
      ∀ q' ∈ Spec.methods, ArgParse.builders.lookup q'.1 = ArgParse.builders.lookup q.1 → q'.1 = q.1 := by decide +kernel
  intro q hq
  obtain ⟨h0, h1, h2, h3⟩ := key q hq
  obtain ⟨o, ho⟩ := Option.isSome_iff_exists.1 h0
  rw [ho] at h1 h2 h3
  exact ⟨o, ho, fun e he h => ⟨(Option.some.inj (h1 e he h).1).symm, (h1 e he h).2⟩,
    fun e he h => ⟨(Option.some.inj (h2 e he h).1).symm, (h2 e he h).2⟩, h3⟩

/-- C142: a method sets its parameter. -/
theorem builder_setting {method param : String} {v : Str} {x : JVal} (hm : (method, param) ∈ Spec.methods)
    (hv : Spec.ParamValue param v x) :
    ∃ o : String, ArgParse.builders.lookup method = some o ∧ Spec.Setting o.toList v param.toList x := by
  obtain ⟨o, ho, h1, h2, -⟩ := builder_opts _ hm
  refine ⟨o, ho, ?_⟩
  rcases hv with ⟨e, he, hp, hne, hr, hl⟩ | ⟨e, he, hp, hv, hx⟩
  · obtain ⟨a, b⟩ := h1 e he hp
    exact Or.inl ⟨e, he, by rw [a], b.symm, hne, hr, hl⟩
  · obtain ⟨a, b⟩ := h2 e he hp
    exact Or.inr ⟨e, he, by rw [a], b.symm, hv, hx⟩

/-- **C142**, methods: a command object made from a text of option/value pairs with placeholders, changed by any calls of
its methods (`with_log_dir` apart, see `log_dir_refused`) with values that their parameters take, runs the program with
each of these parameters at the value of the last call of its method. -/
theorem builder_calls_partial {template : Str} {params pairs : List (Str × Str)}
    (hnd : (params.map (·.1)).Nodup) (hb : ∀ p ∈ params, Spec.NoBrace p.1 ∧ Spec.NoBrace p.2)
    (hw : ∀ p ∈ pairs, Spec.Word p.1 ∧ Spec.Word p.2)
    (ht : Spec.Trim template template) (hdash : template = [] ∨ template.head? = some '-')
    (hf : Spec.Filled params template (Str.joinBlank (pairs.flatMap fun p => [p.1, p.2])))
    {text : Str} (htext : text = template ∨ text = "pyg2p ".toList ++ template)
    (hopts : ∀ p ∈ pairs, ∃ k x, Spec.Setting p.1 p.2 k x)
    (calls : List (String × Str)) (hcalls : ∀ c ∈ calls, (c.2 = [] ∨ Spec.Word c.2) ∧
      ∃ param x, (c.1, param) ∈ Spec.methods ∧ Spec.ParamValue param c.2 x) :
    ∃ d d' argv parsed, commandInit (some text) params = .ok d ∧
      calls.foldlM (fun d c => ArgParse.withMethod d c.1 c.2) d = .ok d' ∧
      commandArgv d' = .ok argv ∧ parseArgs argv = .ok (some parsed) ∧
      ∀ pre post method v param x, calls = pre ++ (method, v) :: post → (∀ c ∈ post, c.1 ≠ method) →
        (method, param) ∈ Spec.methods → Spec.ParamValue param v x → Dict.get? parsed param.toList = some x := by
  set opt : String × Str → Str × Str := fun c => (((ArgParse.builders.lookup c.1).getD "").toList, c.2) with hopt
  have hset : ∀ c ∈ calls, ∃ o : String, ArgParse.builders.lookup c.1 = some o ∧ opt c = (o.toList, c.2) ∧
      ∃ k x, Spec.Setting o.toList c.2 k x := by
    intro c hc
    obtain ⟨-, param, x, hm, hv⟩ := hcalls c hc
    obtain ⟨o, ho, hs⟩ := builder_setting hm hv
    exact ⟨o, ho, by rw [hopt]; dsimp only; rw [ho]; rfl, _, _, hs⟩
  have hword : ∀ o k v x, Spec.Setting o k v x → Spec.Word o := by
    have w1 : ∀ e ∈ Spec.valued, Spec.Word e.1.toList := by unfold Spec.Word Spec.White; decide +kernel
    have w2 : ∀ e ∈ Spec.switches, Spec.Word e.1.toList := by unfold Spec.Word Spec.White; decide +kernel
    rintro o k v x (⟨e, he, rfl, -⟩ | ⟨e, he, rfl, -⟩)
    exacts [w1 e he, w2 e he]
  obtain ⟨d, argv, parsed, h1, h2, h3, h4⟩ := command_options_partial hnd hb hw ht hdash hf htext
    (sets := calls.map opt)
    (by
      intro p hp
      obtain ⟨c, hc, rfl⟩ := List.mem_map.1 hp
      obtain ⟨o, -, e, k, x, hs⟩ := hset c hc
      rw [e]
      exact ⟨hword _ _ _ _ hs, (hcalls c hc).1⟩)
    (by
      intro p hp
      rcases List.mem_append.1 hp with hp | hp
      · exact hopts p hp
      · obtain ⟨c, hc, rfl⟩ := List.mem_map.1 hp
        obtain ⟨o, -, e, k, x, hs⟩ := hset c hc
        rw [e]
        exact ⟨k, x, hs⟩)
  refine ⟨d, _, argv, parsed, h1, ?_, h2, h3, ?_⟩
  · clear h1 h2 h3 h4 hcalls
    induction calls generalizing d with
    | nil => rfl
    | cons c l ih =>
      rw [List.foldlM_cons]
      obtain ⟨o, ho, e, -⟩ := hset c List.mem_cons_self
      have : ArgParse.withMethod d c.1 c.2 = .ok (commandSet d (opt c).1 (opt c).2) := by
        unfold ArgParse.withMethod
        rw [ho, e]
        rfl
      rw [this]
      exact ih (fun c hc => hset c (List.mem_cons_of_mem _ hc)) _
  · intro pre post method v param x he hlast hm hv
    obtain ⟨o, ho, hs⟩ := builder_setting hm hv
    refine h4 o.toList v param.toList x ⟨(("-l".toList, "ERROR".toList) :: pairs) ++ pre.map opt, post.map opt, ?_, ?_⟩ hs
    · rw [he, List.map_append, List.map_cons, ← List.append_assoc]
      have : opt (method, v) = (o.toList, v) := by rw [hopt]; dsimp only; rw [ho]; rfl
      rw [this]
    · intro q hq hqo
      obtain ⟨c, hc, rfl⟩ := List.mem_map.1 hq
      have hcc : c ∈ calls := by rw [he]; exact List.mem_append_right _ (List.mem_cons_of_mem _ hc)
      obtain ⟨o', ho', e, -⟩ := hset c hcc
      obtain ⟨-, param', -, hm', -⟩ := hcalls c hcc
      rw [e] at hqo
      have hoo : o' = o := String.toList_injective hqo
      obtain ⟨o2, ho2, -, -, hinj⟩ := builder_opts _ hm
      rw [ho] at ho2
      cases ho2
      exact hlast c hc (hinj _ hm' (by rw [ho', hoo]))

/-- C142 fails for `with_log_dir`: the option `-d` it sets does not exist, so that every such command is refused. -/
theorem log_dir_refused (d : Dict Str Str) (v : Str) (hnd : (Dict.keys d).Nodup)
    (hwd : ∀ p ∈ d, Spec.Word p.1 ∧ (p.2 = [] ∨ Spec.Word p.2)) (hv : Spec.Word v) (hv2 : v.head? ≠ some '-')
    (hd : ("-d".toList, v) ∈ d) (hrest : ∀ p ∈ d, p.1 ≠ "-d".toList → ∃ k x, Spec.Setting p.1 p.2 k x) :
    ("log_dir", "-d") ∈ ArgParse.builders ∧
    ∃ argv, commandArgv d = .ok argv ∧ parseArgs argv = .error (.app 10000) := by
  refine ⟨by decide +kernel, ?_⟩
  obtain ⟨order, -, hperm, hargv⟩ := commandArgv_options hwd
  have hmem : ("-d".toList, v) ∈ order := hperm.mem_iff.2 hd
  have hndo : (order.map (·.1)).Nodup := (hperm.map _).nodup_iff.2 hnd
  obtain ⟨pre, post, rfl⟩ := List.append_of_mem hmem
  rw [List.map_append, List.map_cons, List.nodup_append] at hndo
  have hpre : ∀ p ∈ pre, ∃ k x, Spec.Setting p.1 p.2 k x := by
    intro p hp
    refine hrest p (hperm.mem_iff.1 (List.mem_append_left _ hp)) ?_
    intro he
    exact hndo.2.2 _ (List.mem_map.2 ⟨p, hp, rfl⟩) _ List.mem_cons_self he
  have hpost : ∀ p ∈ post, ∃ k x, Spec.Setting p.1 p.2 k x := by
    intro p hp
    refine hrest p (hperm.mem_iff.1 (List.mem_append_right _ (List.mem_cons_of_mem _ hp))) ?_
    intro he
    exact (List.nodup_cons.1 hndo.2.1).1 (List.mem_map.2 ⟨p, hp, he⟩)
  obtain ⟨items, a1, a2, -⟩ := items_of pre hpre
  obtain ⟨items', b1, b2, -⟩ := items_of post hpost
  refine ⟨_, hargv, ?_⟩
  have hunk : Spec.Unknown "-d".toList := by
    refine ⟨by decide, by decide, by decide, ?_, ?_⟩
    · intro hc
      have := isNeg_iff _ hc
      revert this; decide
    · have key : ∀ p ∈ names, ¬ ("-d".toList.takeWhile (· ≠ '=')) <+: p.1 ∧ "-d".toList.take 2 ≠ p.1 := by
        decide +kernel
      intro n hn
      rcases hn with rfl | rfl | ⟨e, he, h | h⟩ | ⟨e, he, h | h⟩
      · exact key ("-h".toList, opt "-h" "--help" .help .null) (by unfold names options; simp [opt])
      · exact key ("--help".toList, opt "-h" "--help" .help .null) (by unfold names options; simp [opt])
      · subst h
        obtain ⟨o, ho, -⟩ := brief_eq (valued_names e he).1
        exact key _ (find_mem ho)
      · subst h
        obtain ⟨o, ho, -⟩ := brief_eq (valued_names e he).2.1
        exact key _ (find_mem ho)
      · subst h
        obtain ⟨o, ho, -⟩ := brief_eq (switch_names e he).1
        exact key _ (find_mem ho)
      · subst h
        obtain ⟨o, ho, -⟩ := brief_eq (switch_names e he).2.1
        exact key _ (find_mem ho)
  have := stray_refused items items' a1 b1 ["-d".toList, v] (by simp) (by
    intro u hu
    rcases List.mem_cons.1 hu with rfl | hu
    · exact Or.inr hunk
    · rw [List.mem_singleton.1 hu]
      exact Or.inl hv2)
  rw [a2, b2] at this
  rw [List.flatMap_append, List.flatMap_cons, if_neg hv.1]
  rw [List.append_assoc] at this
  exact this

/-! ## Examples -/

/-- A command line in all spellings. -/
example : parseArgs (["-c", "cmd.json", "--inputFile=rain.grb", "-s6", "-e", "24", "-BX", "--outD", "maps", "-O=-1e-3",
      "-s", "-12", "-vm", "-.5"].map String.toList) =
    .ok (some (([("commandsFile", .str "cmd.json".toList), ("outDir", .str "maps".toList),
      ("inputFile", .str "rain.grb".toList), ("inputFile2", .null), ("start", .int (-12)), ("end", .int 24),
      ("perturbationNumber", .null), ("dataTime", .null), ("dataDate", .null), ("fmap", .int 1),
      ("format", .str "notset".toList), ("ext", .int 1), ("namePrefix", .null), ("offset", .str "-1e-3".toList),
      ("scaleFactor", .null), ("validMax", .null), ("validMin", .str "-.5".toList), ("valueFormat", .null),
      ("outputStepUnits", .null), ("loggerLevel", .str "INFO".toList), ("intertableDir", .null),
      ("geopotentialDir", .null), ("createIntertable", .bool true), ("interpolationParallel", .bool true),
      ("addGeopotential", .null), ("downloadConf", .null), ("underApi", .bool false), ("checkConf", .bool false)]
        : List (String × JVal)).map fun p => (p.1.toList, p.2))) := by
  decide +kernel

/-- C141: scientific notation after the option. -/
example : parseArgs (["-c", "x", "-O", "-1e-3"].map String.toList) = .error (.app 10000) := by decide +kernel

/-- C141: an ambiguous abbreviation. -/
example : parseArgs (["--data", "5"].map String.toList) = .error (.app 10000) := by decide +kernel

/-- The hypotheses of C140 hold of a line with a negative start. -/
example : Spec.Sets (.apart "-s".toList "-12".toList) "start".toList (.int (-12)) :=
  ⟨("-s", "--start", .number), by unfold Spec.valued; simp, Or.inl rfl, by decide,
    ⟨-12, ⟨[1, 2], by decide, by decide, Or.inr ⟨by decide, by decide⟩⟩, rfl⟩,
    Or.inr (Or.inr ⟨['1', '2'], [], by decide, Or.inl ⟨rfl, by decide⟩⟩)⟩

/-- a command object. -/
example : (do
    let d ← commandInit (some "pyg2p -i rain.grb -c cmd.json".toList) []
    let argv ← commandArgv (commandSet (commandSet d "-e".toList "24".toList) "-B".toList [])
    match ← parseArgs argv with
    | none => .error .typeError
    | some p => .ok (Dict.get? p "end".toList, Dict.get? p "inputFile".toList, Dict.get? p "createIntertable".toList,
        Dict.get? p "loggerLevel".toList)) =
    (.ok (some (JVal.int 24), some (.str "rain.grb".toList), some (.bool true), some (.str "ERROR".toList)) : Py _) := by
  decide +kernel

/-- C142: calls of methods; the last one counts. -/
example : ∃ d d' argv parsed, commandInit (some "-i rain.grb".toList) [] = .ok d ∧
    [("tend", "24".toList), ("create_intertable", []), ("tend", "30".toList)].foldlM
      (fun d c => ArgParse.withMethod d c.1 c.2) d = .ok d' ∧
    commandArgv d' = .ok argv ∧ parseArgs argv = .ok (some parsed) ∧ Dict.get? parsed "end".toList = some (.int 30) := by
  have hn : ∀ a b : Nat, a < 10 → b < 10 → Spec.Reads .number (Spec.digitsText [a, b]) (.int (10 * a + b)) := by
    intro a b ha hb
    refine ⟨10 * a + b, ⟨[a, b], by simp, ?_, Or.inl ⟨Or.inl rfl, ?_⟩⟩, rfl⟩
    · intro d hd
      simp only [List.mem_cons, List.not_mem_nil, or_false] at hd
      omega
    · simp [Nat.ofDigits_cons]
      ring
  have hs : ∀ v : Str, ∀ x, v ≠ [] → v.head? ≠ some '-' → Spec.Reads .number v x → Spec.ParamValue "end" v x :=
    fun v x h0 h1 h => Or.inl ⟨("-e", "--end", .number), by unfold Spec.valued; simp, by decide, h0, h, Or.inl h1⟩
  have h24 := hs "24".toList (.int 24) (by decide) (by decide) (hn 2 4 (by decide) (by decide))
  have h30 := hs "30".toList (.int 30) (by decide) (by decide) (hn 3 0 (by decide) (by decide))
  have word : ∀ v ∈ ["24", "30", "-i", "rain.grb"].map String.toList, Spec.Word v := by
    unfold Spec.Word Spec.White; decide +kernel
  have hfill : Spec.Filled [] "-i rain.grb".toList (Str.joinBlank ([("-i".toList, "rain.grb".toList)].flatMap
      fun p : Str × Str => [p.1, p.2])) := by
    have key : ∀ t : Str, '{' ∉ t → '}' ∉ t → Spec.Filled [] t t := by
      intro t
      induction t with
      | nil => exact fun _ _ => .nil
      | cons c t ih =>
        intro h1 h2
        exact .char (fun e => h1 (by simp [e])) (fun e => h2 (by simp [e]))
          (ih (fun e => h1 (List.mem_cons_of_mem _ e)) (fun e => h2 (List.mem_cons_of_mem _ e)))
    exact key _ (by decide) (by decide)
  have htrim : Spec.Trim "-i rain.grb".toList "-i rain.grb".toList := by
    refine ⟨[], [], by simp, by simp, by simp, ?_, ?_⟩ <;> (unfold Spec.White; decide +kernel)
  obtain ⟨d, d', argv, parsed, h1, h2, h3, h4, h5⟩ := builder_calls_partial (template := "-i rain.grb".toList) (params := [])
    (pairs := [("-i".toList, "rain.grb".toList)]) (by simp) (by simp)
    (by
      intro p hp
      rw [List.mem_singleton.1 hp]
      exact ⟨word _ (by simp), word _ (by simp)⟩)
    htrim (Or.inr (by decide)) hfill (Or.inl rfl)
    (by
      intro p hp
      rw [List.mem_singleton.1 hp]
      exact ⟨_, _, Or.inl ⟨("-i", "--inputFile", .text), by unfold Spec.valued; simp, rfl, rfl, by decide, rfl, Or.inl (by decide)⟩⟩)
    [("tend", "24".toList), ("create_intertable", []), ("tend", "30".toList)]
    (by
      intro c hc
      simp only [List.mem_cons, List.not_mem_nil, or_false] at hc
      rcases hc with rfl | rfl | rfl
      · exact ⟨Or.inr (word _ (by simp)), "end", _, by unfold Spec.methods; simp, h24⟩
      · exact ⟨Or.inl rfl, "createIntertable", .bool true, by unfold Spec.methods; simp,
          Or.inr ⟨("-B", "--createIntertable"), by unfold Spec.switches; simp, by decide, rfl, rfl⟩⟩
      · exact ⟨Or.inr (word _ (by simp)), "end", _, by unfold Spec.methods; simp, h30⟩)
  exact ⟨d, d', argv, parsed, h1, h2, h3, h4, h5 [_, _] [] "tend" _ "end" _ rfl (by simp) (by unfold Spec.methods; simp) h30⟩

end PyG2P
