import Verif.Model.Messages
import Verif.Lemmas.Text
import Verif.Props.Scaling

/-! # C22-C25: step keys, grid identifiers, message sets, reference time -/

namespace PyG2P
open Spec
variable {n m : Nat}

/-! ## C22 -/

/-- C22 (equality and hashing): two step keys are equal iff all five components are; equal keys hash the
same tuple. -/
theorem C22_equality (a b : Step) :
    (a.pyEq b = true ↔ a.startStep = b.startStep ∧ a.endStep = b.endStep ∧ a.resolution = b.resolution ∧
      a.inputStep = b.inputStep ∧ a.level = b.level) ∧
    (a.pyEq b = true → a.hashTuple = b.hashTuple) := by
  constructor
  · simp [Step.pyEq, and_assoc]
  · intro h
    simp [Step.pyEq, and_assoc] at h
    obtain ⟨h1, h2, h3, h4, h5⟩ := h
    simp [Step.hashTuple, h1, h2, h3, h4, h5]

/-- C22 (dictionary): a value stored under one key is found under every equal key, and storing does not
change what is found under any other key. -/
theorem C22_dictionary (d : Dict Step (Arr n)) (a b : Step) (v : Arr n) :
    (a.pyEq b = true → Dict.get? (Dict.set d a v) b = some v) ∧
    (a.pyEq b = false → Dict.get? (Dict.set d a v) b = Dict.get? d b) := by
  have hiff : a.pyEq b = true ↔ a = b := by
    rw [(C22_equality a b).1]
    constructor
    · rintro ⟨h1, h2, h3, h4, h5⟩; cases a; cases b; simp_all
    · rintro rfl; exact ⟨rfl, rfl, rfl, rfl, rfl⟩
  rw [Dict.get?_set]
  constructor
  · intro h; rw [if_pos (hiff.1 h)]
  · intro h; rw [if_neg]; intro e; rw [hiff.2 e] at h; cases h

/-- C22 (order): `<` and `<=` compare start steps; `<=` is a total preorder and `<` its strict part. -/
theorem C22_order (a b c : Step) :
    (a.pyLt b = true ↔ a.startStep < b.startStep) ∧
    (a.pyLe b = true ∨ b.pyLe a = true) ∧
    (a.pyLe b = true → b.pyLe c = true → a.pyLe c = true) ∧
    (a.pyLt b = true ↔ a.pyLe b = true ∧ ¬ b.pyLe a = true) := by
  simp only [Step.pyLt, Step.pyLe, decide_eq_true_eq]
  refine ⟨trivial, le_total _ _, le_trans, ?_⟩
  rw [not_le]
  exact ⟨fun h => ⟨le_of_lt h, h⟩, fun h => h.2⟩

example : (⟨0, 6, 640, 6, 0⟩ : Step).pyEq ⟨0, 6, 640, 6, 0⟩ = true ∧
    (⟨0, 6, 640, 6, 0⟩ : Step).pyEq ⟨0, 6, 640, 3, 0⟩ = false := by decide

/-! ## C23 -/

/-- A longitude to four decimals, in ten-thousandths of a degree (nearest, ties to even). -/
def Spec.to4 (x : ℚ) : Int := Str.roundHalfEven (x * 10000)

theorem roundHalfEven_neg (q : ℚ) : Str.roundHalfEven (-q) = -Str.roundHalfEven q := by
  unfold Str.roundHalfEven
  dsimp only
  have h0 := Int.floor_le q
  have h1 := Int.lt_floor_add_one q
  by_cases hr : q - ⌊q⌋ = 0
  · have hf : ⌊-q⌋ = -⌊q⌋ := by
      rw [Int.floor_eq_iff]; push_cast; constructor <;> linarith
    rw [hf, if_pos (by push_cast; linarith), if_pos (by linarith)]
  · have hpos : 0 < q - ⌊q⌋ := lt_of_le_of_ne (by linarith) (Ne.symm hr)
    have hf : ⌊-q⌋ = -⌊q⌋ - 1 := by
      rw [Int.floor_eq_iff]; push_cast; constructor <;> linarith
    rw [hf]
    rcases lt_trichotomy (q - ⌊q⌋) (1 / 2) with h | h | h
    · rw [if_neg (by push_cast; linarith), if_pos (by push_cast; linarith), if_pos h]; omega
    · have e1 : ¬ (-q - ((-⌊q⌋ - 1 : Int) : ℚ) < 1 / 2) := by push_cast; linarith
      have e2 : ¬ (1 / 2 < -q - ((-⌊q⌋ - 1 : Int) : ℚ)) := by push_cast; linarith
      have e3 : ¬ (q - ⌊q⌋ < 1 / 2) := by linarith
      have e4 : ¬ (1 / 2 < q - ⌊q⌋) := by linarith
      simp only [if_neg e1, if_neg e2, if_neg e3, if_neg e4]
      split_ifs with h5 h6 h6 <;> omega
    · rw [if_pos (by push_cast; linarith), if_neg (by linarith), if_pos h]; omega

theorem roundHalfEven_nonneg {q : ℚ} (h : 0 ≤ q) : 0 ≤ Str.roundHalfEven q := by
  have := Int.floor_nonneg.2 h
  unfold Str.roundHalfEven; dsimp only; split_ifs <;> omega

theorem fourDigits_inj {k k' : Nat} (h : Str.fourDigits k = Str.fourDigits k') : k % 10000 = k' % 10000 := by
  unfold Str.fourDigits at h
  simp only [List.cons.injEq, and_true] at h
  obtain ⟨h1, h2, h3, h4⟩ := h
  have h1 := Str.digit_inj h1
  have h2 := Str.digit_inj h2
  have h3 := Str.digit_inj h3
  have h4 := Str.digit_inj h4
  omega

/-- the part of the text before the decimal point. -/
def intPart (x : ℚ) : Str :=
  (if x < 0 then ['-'] else []) ++ Str.ofNat ((Str.roundHalfEven (|x| * 10000)).toNat / 10000)

theorem intPart_chars (x : ℚ) : ∀ c ∈ intPart x, Str.IsDigit c ∨ c = '-' := by
  intro c hc
  unfold intPart at hc
  rcases List.mem_append.1 hc with h | h
  · split_ifs at h
    · simp at h; exact Or.inr h
    · simp at h
  · exact Or.inl (Str.ofNat_digits _ _ h)

theorem not_mem_intPart (x : ℚ) {c : Char} (h1 : c ≠ '-') (h2 : ¬ Str.IsDigit c) : c ∉ intPart x :=
  fun h => (intPart_chars x c h).elim h2 h1

theorem not_digit_dot : ¬ Str.IsDigit '.' := fun h => (Str.isDigit_ne h).1 rfl
theorem not_digit_dollar : ¬ Str.IsDigit '$' := fun h => (Str.isDigit_ne h).2.2.1 rfl
theorem not_digit_M : ¬ Str.IsDigit 'M' := fun h => (Str.isDigit_ne h).2.2.2.1 rfl

theorem longText_eq (x : ℚ) :
    let F := Str.rstrip '0' (Str.fourDigits (Str.roundHalfEven (|x| * 10000)).toNat)
    GeoKeys.longText x = if F = [] then intPart x else intPart x ++ '.' :: F := by
  intro F
  have h1 : Str.fmt4 x = intPart x ++ '.' :: Str.fourDigits (Str.roundHalfEven (|x| * 10000)).toNat := by
    simp [Str.fmt4, intPart]
  unfold GeoKeys.longText
  rw [h1, Str.rstrip_append_sep (by decide)]
  change Str.rstrip '.' (intPart x ++ '.' :: F) = _
  split_ifs with hF
  · rw [hF, Str.rstrip_append_self]
    refine Str.rstrip_eq_self ?_
    intro h
    exact not_mem_intPart x (by decide) not_digit_dot (List.mem_of_getLast? h)
  · refine Str.rstrip_eq_self ?_
    intro h
    have h2 : ('.' :: F).getLast? = F.getLast? := by
      cases hFF : F with
      | nil => exact absurd hFF hF
      | cons a l => simp
    have h3 : F.getLast? = some '.' := by
      rw [← h2]; rwa [List.getLast?_append_of_ne_nil _ (by simp)] at h
    have h4 : '.' ∈ Str.fourDigits (Str.roundHalfEven (|x| * 10000)).toNat :=
      Str.rstrip_mem (List.mem_of_getLast? h3)
    simp only [Str.fourDigits, List.mem_cons, List.not_mem_nil, or_false] at h4
    rcases h4 with h | h | h | h <;> exact not_digit_dot (h ▸ Str.isDigit_digit _)

theorem pad_inj {F F' : Str} (hl : F.length = F'.length) (h : Str.rstrip '0' F = Str.rstrip '0' F') :
    F = F' := by
  obtain ⟨k, hk⟩ := Str.rstrip_spec '0' F
  obtain ⟨k', hk'⟩ := Str.rstrip_spec '0' F'
  have h1 := congrArg List.length hk
  have h2 := congrArg List.length hk'
  rw [List.length_append, List.length_replicate] at h1 h2
  rw [h] at h1
  have : k = k' := by omega
  rw [hk, hk', h, this]

theorem intPart_inj {x y : ℚ} (h : intPart x = intPart y) :
    (x < 0 ↔ y < 0) ∧ (Str.roundHalfEven (|x| * 10000)).toNat / 10000 =
      (Str.roundHalfEven (|y| * 10000)).toNat / 10000 := by
  unfold intPart at h
  have hno : ∀ k, '-' ∉ Str.ofNat k := fun k hk => (Str.isDigit_ne (Str.ofNat_digits k _ hk)).2.1 rfl
  by_cases hx : x < 0 <;> by_cases hy : y < 0
  · rw [if_pos hx, if_pos hy] at h
    exact ⟨by simp [hx, hy], Str.ofNat_inj (by simpa using h)⟩
  · rw [if_pos hx, if_neg hy] at h
    exact absurd (by rw [List.nil_append] at h; rw [← h]; simp) (hno _)
  · rw [if_neg hx, if_pos hy] at h
    exact absurd (by rw [List.nil_append] at h; rw [h]; simp) (hno _)
  · rw [if_neg hx, if_neg hy] at h
    exact ⟨by simp [hx, hy], Str.ofNat_inj (by simpa using h)⟩

theorem longText_inj {x y : ℚ} (h : GeoKeys.longText x = GeoKeys.longText y) :
    (x < 0 ↔ y < 0) ∧ Str.roundHalfEven (|x| * 10000) = Str.roundHalfEven (|y| * 10000) := by
  have hx := longText_eq x
  have hy := longText_eq y
  dsimp only at hx hy
  rw [hx, hy] at h
  have h0x := roundHalfEven_nonneg (q := |x| * 10000) (by positivity)
  have h0y := roundHalfEven_nonneg (q := |y| * 10000) (by positivity)
  have hdot : ∀ z, '.' ∉ intPart z := fun z => not_mem_intPart z (by decide) not_digit_dot
  have fin : intPart x = intPart y →
      Str.rstrip '0' (Str.fourDigits (Str.roundHalfEven (|x| * 10000)).toNat) =
        Str.rstrip '0' (Str.fourDigits (Str.roundHalfEven (|y| * 10000)).toNat) →
      (x < 0 ↔ y < 0) ∧ Str.roundHalfEven (|x| * 10000) = Str.roundHalfEven (|y| * 10000) := by
    intro h1 h2
    obtain ⟨h3, h4⟩ := intPart_inj h1
    have h5 := fourDigits_inj (pad_inj (by simp [Str.fourDigits]) h2)
    exact ⟨h3, by omega⟩
  split_ifs at h with h1 h2 h2
  · exact fin h (by rw [h1, h2])
  · exact absurd (h ▸ (by simp : '.' ∈ intPart y ++ '.' :: _)) (hdot x)
  · exact absurd (h ▸ (by simp : '.' ∈ intPart x ++ '.' :: _)) (hdot y)
  · obtain ⟨h3, h4⟩ := Str.split_unique (hdot x) (hdot y) h
    exact fin h3 h4

theorem to4_abs (x : ℚ) : Str.roundHalfEven (|x| * 10000) = if x < 0 then -to4 x else to4 x := by
  unfold to4
  split_ifs with h
  · rw [abs_of_neg h, neg_mul, roundHalfEven_neg]
  · rw [abs_of_nonneg (not_lt.1 h)]

/-- A longitude that does not round to "minus zero". -/
def Spec.NotMinusZero (x : ℚ) : Prop := 0 ≤ x ∨ to4 x ≠ 0

theorem longText_iff {x y : ℚ} (hx : NotMinusZero x) (hy : NotMinusZero y) :
    GeoKeys.longText x = GeoKeys.longText y ↔ to4 x = to4 y := by
  have hnn : ∀ z : ℚ, 0 ≤ z → 0 ≤ to4 z := fun z hz => roundHalfEven_nonneg (by positivity)
  have hnp : ∀ z : ℚ, z < 0 → to4 z ≤ 0 := by
    intro z hz
    have := roundHalfEven_nonneg (q := -(z * 10000)) (by linarith)
    rw [roundHalfEven_neg] at this
    unfold to4; omega
  constructor
  · intro h
    obtain ⟨h1, h2⟩ := longText_inj h
    rw [to4_abs, to4_abs] at h2
    by_cases hx0 : x < 0
    · rw [if_pos hx0, if_pos (h1.1 hx0)] at h2; omega
    · rw [if_neg hx0, if_neg (fun hy0 => hx0 (h1.2 hy0))] at h2; exact h2
  · intro h
    have hs : x < 0 ↔ y < 0 := by
      unfold NotMinusZero at hx hy
      constructor
      · intro hx0
        by_contra hy0
        have h1 := hnp x hx0
        have h2 := hnn y (not_lt.1 hy0)
        rcases hx with hx | hx
        · exact absurd hx (not_le.2 hx0)
        · omega
      · intro hy0
        by_contra hx0
        have h1 := hnp y hy0
        have h2 := hnn x (not_lt.1 hx0)
        rcases hy with hy | hy
        · exact absurd hy (not_le.2 hy0)
        · omega
    have hr : Str.roundHalfEven (|x| * 10000) = Str.roundHalfEven (|y| * 10000) := by
      rw [to4_abs, to4_abs]
      by_cases hx0 : x < 0
      · rw [if_pos hx0, if_pos (hs.1 hx0), h]
      · rw [if_neg hx0, if_neg (fun hy0 => hx0 (hs.2 hy0)), h]
    have hi : intPart x = intPart y := by
      unfold intPart; rw [hr]
      by_cases hx0 : x < 0
      · rw [if_pos hx0, if_pos (hs.1 hx0)]
      · rw [if_neg hx0, if_neg (fun hy0 => hx0 (hs.2 hy0))]
    have e1 := longText_eq x
    have e2 := longText_eq y
    dsimp only at e1 e2
    rw [e1, e2, hr, hi]

theorem longText_chars (x : ℚ) : ∀ c ∈ GeoKeys.longText x, Str.IsDigit c ∨ c = '-' ∨ c = '.' := by
  intro c hc
  have := longText_eq x
  dsimp only at this
  rw [this] at hc
  have hin : c ∈ intPart x ++ '.' :: Str.rstrip '0' (Str.fourDigits (Str.roundHalfEven (|x| * 10000)).toNat) := by
    split_ifs at hc
    · exact List.mem_append_left _ hc
    · exact hc
  rcases List.mem_append.1 hin with h | h
  · rcases intPart_chars x c h with h | h
    · exact Or.inl h
    · exact Or.inr (Or.inl h)
  · rcases List.mem_cons.1 h with h | h
    · exact Or.inr (Or.inr h)
    · have h4 := Str.rstrip_mem h
      simp only [Str.fourDigits, List.mem_cons, List.not_mem_nil, or_false] at h4
      rcases h4 with h | h | h | h <;> exact Or.inl (h ▸ Str.isDigit_digit _)

theorem longText_no (x : ℚ) : '$' ∉ GeoKeys.longText x ∧ 'M' ∉ GeoKeys.longText x := by
  constructor
  · intro h
    rcases longText_chars x _ h with h | h | h
    · exact not_digit_dollar h
    · cases h
    · cases h
  · intro h
    rcases longText_chars x _ h with h | h | h
    · exact not_digit_M h
    · cases h
    · cases h

theorem intText_no (o : Option Int) : '$' ∉ GeoKeys.intText o := by
  cases o with
  | none => simp [GeoKeys.intText]
  | some z =>
    intro h
    rcases Str.ofInt_chars z _ h with h | h
    · exact not_digit_dollar h
    · cases h

theorem intText_inj {a b : Option Int} (h : GeoKeys.intText a = GeoKeys.intText b) : a = b := by
  have hM : ∀ z, 'M' ∉ Str.ofInt z := fun z h => (Str.ofInt_chars z _ h).elim not_digit_M (by decide)
  cases a with
  | none =>
    cases b with
    | none => rfl
    | some z => exact absurd (by change 'M' ∈ GeoKeys.intText (some z); rw [← h]; simp [GeoKeys.intText]) (hM z)
  | some y =>
    cases b with
    | none => exact absurd (by change 'M' ∈ GeoKeys.intText (some y); rw [h]; simp [GeoKeys.intText]) (hM y)
    | some z => exact congrArg some (Str.ofInt_inj h)

/-- the text of the last longitude. -/
def lastText : Option ℚ → Str
  | none => ['M']
  | some x => GeoKeys.longText x

theorem lastText_no (o : Option ℚ) : '$' ∉ lastText o := by
  cases o with
  | none => simp [lastText]
  | some x => exact (longText_no x).1

/-- C23 (partial: longitudes in (-0.00005, 0), which print as `-0`, are excluded, see
`C23_minus_zero`): two grids get the same identifier iff they agree on first and last longitude to four
decimals, on Ni and Nj (missing or equal), on the number of values and on the grid type. -/
theorem C23_grid_id_partial (g g' : GeoKeys)
    (h1 : NotMinusZero g.longFirst) (h1' : NotMinusZero g'.longFirst)
    (h2 : ∀ x, g.longLast = some x → NotMinusZero x) (h2' : ∀ x, g'.longLast = some x → NotMinusZero x) :
    g.buildId = g'.buildId ↔
      to4 g.longFirst = to4 g'.longFirst ∧ g.longLast.map to4 = g'.longLast.map to4 ∧
      g.ni = g'.ni ∧ g.nj = g'.nj ∧ g.numberOfValues = g'.numberOfValues ∧ g.gridType = g'.gridType := by
  have hlast : lastText g.longLast = lastText g'.longLast ↔ g.longLast.map to4 = g'.longLast.map to4 := by
    cases ha : g.longLast with
    | none =>
      cases hb : g'.longLast with
      | none => simp
      | some y =>
        simp only [lastText, Option.map_none, Option.map_some, reduceCtorEq, iff_false]
        intro h
        exact (longText_no y).2 (by rw [← h]; simp)
    | some x =>
      cases hb : g'.longLast with
      | none =>
        simp only [lastText, Option.map_none, Option.map_some, reduceCtorEq, iff_false]
        intro h
        exact (longText_no x).2 (by rw [h]; simp)
      | some y =>
        simp only [lastText, Option.map_some, Option.some.injEq]
        exact longText_iff (h2 x ha) (h2' y hb)
  have hid : ∀ g : GeoKeys, g.buildId = GeoKeys.longText g.longFirst ++ '$' :: (lastText g.longLast ++ '$' ::
      (GeoKeys.intText g.ni ++ '$' :: (GeoKeys.intText g.nj ++ '$' ::
      (Str.ofInt g.numberOfValues ++ '$' :: g.gridType)))) := by
    intro g; unfold GeoKeys.buildId lastText; cases g.longLast <;> rfl
  have hnv : ∀ z, '$' ∉ Str.ofInt z := fun z h => (Str.ofInt_chars z _ h).elim not_digit_dollar (by decide)
  rw [hid, hid]
  constructor
  · intro h
    obtain ⟨a1, h⟩ := Str.split_unique (longText_no _).1 (longText_no _).1 h
    obtain ⟨a2, h⟩ := Str.split_unique (lastText_no _) (lastText_no _) h
    obtain ⟨a3, h⟩ := Str.split_unique (intText_no _) (intText_no _) h
    obtain ⟨a4, h⟩ := Str.split_unique (intText_no _) (intText_no _) h
    obtain ⟨a5, h⟩ := Str.split_unique (hnv _) (hnv _) h
    exact ⟨(longText_iff h1 h1').1 a1, hlast.1 a2, intText_inj a3, intText_inj a4, Str.ofInt_inj a5, h⟩
  · rintro ⟨a1, a2, a3, a4, a5, a6⟩
    rw [(longText_iff h1 h1').2 a1, hlast.2 a2, a3, a4, a5, a6]

/-- Non-vacuity: a global regular grid and a reduced grid. -/
example : GeoKeys.buildId ⟨0, some (3596250/10000), some 960, some 480, 460800, "regular_ll".toList⟩ =
      "0$359.625$960$480$460800$regular_ll".toList ∧
    GeoKeys.buildId ⟨-125/10, none, none, some 640, 542080, "reduced_gg".toList⟩ =
      "-12.5$M$M$640$542080$reduced_gg".toList ∧ NotMinusZero 0 ∧ NotMinusZero (-125/10) := by
  refine ⟨by decide +kernel, by decide +kernel, Or.inl (le_refl _), Or.inr (by decide +kernel)⟩

/-- C23 is false for a tiny negative longitude: it agrees with 0 to four decimals but the identifiers
differ (`-0` and `0`). -/
theorem C23_minus_zero : ∃ g g' : GeoKeys, to4 g.longFirst = to4 g'.longFirst ∧ g.longLast = g'.longLast ∧
    g.ni = g'.ni ∧ g.nj = g'.nj ∧ g.numberOfValues = g'.numberOfValues ∧ g.gridType = g'.gridType ∧
    g.buildId ≠ g'.buildId :=
  ⟨⟨0, none, none, none, 10, []⟩, ⟨-1/100000, none, none, none, 10, []⟩, by decide +kernel, rfl, rfl, rfl, rfl,
    rfl, by decide +kernel⟩

/-! ## C24 -/

/-- C24 (first step): building a message set fails exactly when there are no messages; otherwise its first
step is one of its keys and no key has a smaller end step. -/
theorem C24_first_step (values : Dict Step (Arr n)) (mv : Num) (g : Grid) (second : Dict Step (Arr m)) :
    (values = [] → MsgSet.init values mv g second = .error .indexError) ∧
    (values ≠ [] → ∃ s, MsgSet.init values mv g second = .ok s ∧ s.first = values ∧ s.second = second ∧
      s.firstStep ∈ Dict.keys values ∧ ∀ k ∈ Dict.keys values, s.firstStep.endStep ≤ k.endStep) := by
  constructor
  · rintro rfl; rfl
  · intro hne
    have hp := sortedBy_perm Step.endStep (Dict.keys values)
    have hw := sortedBy_pairwise Step.endStep (Dict.keys values)
    cases hk : sortedBy Step.endStep (Dict.keys values) with
    | nil =>
      rw [hk] at hp
      have := hp.symm.eq_nil
      simp [Dict.keys] at this
      exact absurd this hne
    | cons a l =>
      rw [hk] at hp hw
      refine ⟨⟨values, second, mv, g, a⟩, ?_, rfl, rfl, hp.mem_iff.1 (by simp), ?_⟩
      · unfold MsgSet.init; rw [hk, pyGet_zero_cons]; rfl
      · intro k hk'
        rcases List.mem_cons.1 (hp.mem_iff.2 hk') with rfl | h
        · exact le_refl _
        · exact (List.pairwise_cons.1 hw).1 k h

/-- C24 (second resolution): appending a second-resolution set reports a resolution change at the first
step of that set, keeps the messages of the first set and holds the (first-resolution) messages of the
appended one; the length is the sum. -/
theorem C24_append {q k : Nat} (s : MsgSet n q) (o : MsgSet m k) :
    let r := s.append2nd o
    r.haveResolutionChange = true ∧ r.changeResolutionStep = some o.firstStep ∧ r.first = s.first ∧
      r.second = o.first ∧ r.firstStep = s.firstStep ∧ r.len = s.first.length + o.first.length := by
  exact ⟨rfl, rfl, rfl, rfl, rfl, rfl⟩

/-- C24 (conversion): a successful conversion converts every map of both resolutions with the set's own
missing value, under unchanged keys in unchanged order; nothing else changes. -/
theorem C24_conversion (ne : NumExpr) (c : Converter) (s r : MsgSet n m)
    (h : s.applyConversion ne c = .ok r) :
    Dict.keys r.first = Dict.keys s.first ∧ Dict.keys r.second = Dict.keys s.second ∧
    (∀ (j : Nat) p q, s.first[j]? = some p → r.first[j]? = some q →
      Converter.convert ne ({ c with mv := s.mv }) p.2 = .ok q.2) ∧
    (∀ (j : Nat) p q, s.second[j]? = some p → r.second[j]? = some q →
      Converter.convert ne ({ c with mv := s.mv }) p.2 = .ok q.2) ∧
    r.firstStep = s.firstStep ∧ r.haveResolutionChange = s.haveResolutionChange := by
  obtain ⟨f, hf, h⟩ := bind_ok_iff.1 h
  obtain ⟨g, hg, h⟩ := bind_ok_iff.1 h
  cases h
  have key : ∀ {n : Nat} (c : Converter) (d e : Dict Step (Arr n)), MsgSet.convertDict ne c d = .ok e →
      Dict.keys e = Dict.keys d ∧ ∀ (j : Nat) p q, d[j]? = some p → e[j]? = some q →
        Converter.convert ne c p.2 = .ok q.2 := by
    intro n c d
    induction d with
    | nil => intro e h; cases h; simp [Dict.keys]
    | cons p d ih =>
      intro e h
      unfold MsgSet.convertDict at h
      rw [List.mapM_cons] at h
      obtain ⟨y, hy, h⟩ := bind_ok_iff.1 h
      obtain ⟨ys, hys, h⟩ := bind_ok_iff.1 h
      cases h
      obtain ⟨a, ha, hy⟩ := bind_ok_iff.1 hy
      cases hy
      obtain ⟨h1, h2⟩ := ih ys hys
      refine ⟨by simp only [Dict.keys, List.map_cons] at h1 ⊢; rw [h1], ?_⟩
      intro j p' q hp hq
      cases j with
      | zero => simp at hp hq; subst hp hq; exact ha
      | succ j => simp at hp hq; exact h2 j p' q hp hq
  exact ⟨(key _ _ _ hf).1, (key _ _ _ hg).1, (key _ _ _ hf).2, (key _ _ _ hg).2, rfl, rfl⟩

example : ∃ s : MsgSet 1 1, MsgSet.init (m := 1) Demo.ms4 (.fin 9999) ⟨"g".toList, 640, none⟩ [] = .ok s ∧
    s.firstStep = ⟨0, 0, 640, 6, 0⟩ :=
  ⟨⟨Demo.ms4, [], .fin 9999, ⟨"g".toList, 640, none⟩, ⟨0, 0, 640, 6, 0⟩⟩, by rfl, rfl⟩

/-! ## C25 -/

/-- C25 (partial: midnight, and hours from 10 on): the reference hour is the HH of `dataTime` = HHMM. -/
theorem C25_reference_hour_partial (hh mm : Nat) (hm : mm < 60) (h : 10 ≤ hh ∧ hh ≤ 23 ∨ hh = 0 ∧ mm = 0) :
    referenceHour (100 * hh + mm) = .ok hh := by
  have key : ∀ hh < 24, 10 ≤ hh → strptimeHour [Str.digit (hh / 10), Str.digit hh] = .ok hh := by
    decide +kernel
  rcases h with ⟨h1, h2⟩ | ⟨rfl, rfl⟩
  · have eq : ∀ k, Str.ofNat k = if k < 10 then [Str.digit k] else Str.ofNat (k / 10) ++ [Str.digit k] := by
      intro k; rw [Str.ofNat]; split_ifs <;> rfl
    have e1 : (100 * hh + mm) / 10 / 10 = hh := by omega
    have e2 : (100 * hh + mm) / 10 / 10 / 10 = hh / 10 := by omega
    unfold referenceHour
    rw [eq, if_neg (by omega), eq ((100 * hh + mm) / 10), if_neg (by omega), eq ((100 * hh + mm) / 10 / 10),
      if_neg (by omega), e1, eq (hh / 10), if_pos (by omega)]
    exact key hh (by omega) h1
  · decide +kernel

example : referenceHour 1200 = .ok 12 ∧ referenceHour 0 = .ok 0 := by
  constructor <;> decide +kernel

/-- C25 is false for the hours 01 to 09: 0100 is read as 10 o'clock and 0600 raises an error. -/
theorem C25_violated : referenceHour 100 = .ok 10 ∧ referenceHour 600 = .error .valueError := by
  constructor <;> decide +kernel

/-- C25: for every full hour from 3 to 9 the run crashes, and from 1 to 2 the hour is multiplied by ten. -/
theorem C25_morning_hours (hh : Nat) (h : 1 ≤ hh ∧ hh ≤ 9) :
    referenceHour (100 * hh) = if hh ≤ 2 then .ok (10 * hh) else .error .valueError := by
  have : ∀ hh < 10, 1 ≤ hh → referenceHour (100 * hh) = if hh ≤ 2 then .ok (10 * hh) else .error .valueError := by
    decide +kernel
  exact this hh (by omega) h.1

/-- C25, in full: the hour read from `dataTime` is its first two digits (one, if it has no more), and the program fails if
these make no hour. -/
theorem C25_hour_read (t : Nat) (ht : t < 10000) :
    referenceHour t =
      (let x := if t < 100 then t else if t < 1000 then t / 10 else t / 100
       if x ≤ 23 then .ok x else .error .valueError) := by
  have one : ∀ x < 10, strptimeHour [Str.digit x] = .ok x := by decide +kernel
  have two : ∀ x < 100, 10 ≤ x → strptimeHour [Str.digit (x / 10), Str.digit x] =
      if x ≤ 23 then .ok x else .error .valueError := by decide +kernel
  have eq : ∀ k, Str.ofNat k = if k < 10 then [Str.digit k] else Str.ofNat (k / 10) ++ [Str.digit k] := by
    intro k; rw [Str.ofNat]; split_ifs <;> rfl
  unfold referenceHour
  dsimp only
  by_cases h1 : t < 10
  · rw [if_pos (show t < 100 by omega), if_pos (show t ≤ 23 by omega), eq, if_pos h1]
    exact one t h1
  by_cases h2 : t < 100
  · rw [if_pos h2, eq, if_neg h1, eq (t / 10), if_pos (by omega)]
    exact two t h2 (by omega)
  by_cases h3 : t < 1000
  · rw [if_neg h2, if_pos h3, eq, if_neg h1, eq (t / 10), if_neg (by omega), eq (t / 10 / 10), if_pos (by omega)]
    exact two (t / 10) (by omega) (by omega)
  · rw [if_neg h2, if_neg h3, eq, if_neg h1, eq (t / 10), if_neg (by omega), eq (t / 10 / 10), if_neg (by omega),
      eq (t / 10 / 10 / 10), if_pos (by omega)]
    have e : t / 100 = t / 10 / 10 := by omega
    rw [e]
    exact two (t / 10 / 10) (by omega) (by omega)

end PyG2P
