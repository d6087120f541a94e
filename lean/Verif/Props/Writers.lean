import Verif.Model.Writers
import Verif.Lemmas.Text
import Verif.Lemmas.Py
import Mathlib.Tactic.FieldSimp
import Mathlib.Tactic.Positivity
import Mathlib.Algebra.Order.Round

/-! # C50–C54 — map names, time axis, packing, masking, grids -/

namespace PyG2P

/-! ## C50 -/

namespace Str

/-- the last `w` decimal digits. -/
def digitsW : Nat → Nat → Str
  | 0, _ => []
  | w + 1, n => digitsW w (n / 10) ++ [digit n]

theorem digitsW_length (w n : Nat) : (digitsW w n).length = w := by
  induction w generalizing n with
  | zero => rfl
  | succ w ih => rw [digitsW, List.length_append, ih]; rfl

theorem digitsW_zero (w : Nat) : digitsW w 0 = List.replicate w '0' := by
  induction w with
  | zero => rfl
  | succ w ih =>
    rw [digitsW, Nat.zero_div, ih, List.replicate_succ']
    rfl

theorem ofNat_lt {n : Nat} (h : n < 10) : ofNat n = [digit n] := by
  rw [ofNat, dif_pos h]

theorem ofNat_ge {n : Nat} (h : ¬ n < 10) : ofNat n = ofNat (n / 10) ++ [digit n] := by
  conv_lhs => rw [ofNat, dif_neg h]

theorem padded_eq (n : Nat) : ∀ w, (ofNat n).length ≤ w →
    List.replicate (w - (ofNat n).length) '0' ++ ofNat n = digitsW w n := by
  induction n using Nat.strong_induction_on with
  | _ n ih =>
    intro w hw
    by_cases h : n < 10
    · rw [ofNat_lt h] at *
      cases w with
      | zero => simp at hw
      | succ w =>
        rw [digitsW, Nat.div_eq_of_lt h, digitsW_zero]
        simp
    · rw [ofNat_ge h] at *
      cases w with
      | zero => simp at hw
      | succ w =>
        rw [List.length_append] at *
        have hl : (ofNat (n / 10)).length ≤ w := by
          have : [digit n].length = 1 := rfl
          omega
        rw [digitsW, ← ih (n / 10) (by omega) w hl, ← List.append_assoc]
        congr 3
        have : [digit n].length = 1 := rfl
        omega

theorem lt_pow_of_length (n : Nat) : ∀ w, (ofNat n).length ≤ w → n < 10 ^ w := by
  induction n using Nat.strong_induction_on with
  | _ n ih =>
    intro w hw
    by_cases h : n < 10
    · rw [ofNat_lt h] at hw
      cases w with
      | zero => simp at hw
      | succ w =>
        have : 0 < 10 ^ w := Nat.pow_pos (by omega)
        rw [Nat.pow_succ]; omega
    · rw [ofNat_ge h, List.length_append] at hw
      cases w with
      | zero => simp at hw
      | succ w =>
        have hl : (ofNat (n / 10)).length ≤ w := by
          have : [digit n].length = 1 := rfl
          omega
        have := ih (n / 10) (by omega) w hl
        rw [Nat.pow_succ]; omega

theorem append_lt_of_lt {a b : Str} (h : a.length = b.length) (hlt : a < b) (x y : Str) : a ++ x < b ++ y := by
  induction a generalizing b with
  | nil =>
    cases b with
    | nil => exact absurd hlt (List.lt_irrefl _)
    | cons => cases h
  | cons c a ih =>
    cases b with
    | nil => cases h
    | cons d b =>
      rw [List.cons_append, List.cons_append, List.cons_lt_cons_iff]
      rcases List.cons_lt_cons_iff.1 hlt with h' | ⟨h1, h2⟩
      · exact Or.inl h'
      · exact Or.inr ⟨h1, ih (by simpa using h) h2⟩

theorem append_lt_append (a : Str) {x y : Str} (h : x < y) : a ++ x < a ++ y := by
  induction a with
  | nil => exact h
  | cons c a ih =>
    rw [List.cons_append, List.cons_append, List.cons_lt_cons_iff]
    exact Or.inr ⟨rfl, ih⟩

theorem digit_lt {a b : Nat} (h : a % 10 < b % 10) : digit a < digit b := by
  have key : ∀ b < 10, ∀ a < b, Char.ofNat (48 + a) < Char.ofNat (48 + b) := by decide
  exact key (b % 10) (Nat.mod_lt _ (by omega)) (a % 10) h

theorem digitsW_lt (w : Nat) : ∀ n m : Nat, n < m → m < 10 ^ w → digitsW w n < digitsW w m := by
  induction w with
  | zero => intro n m h1 h2; rw [Nat.pow_zero] at h2; omega
  | succ w ih =>
    intro n m h1 h2
    rw [digitsW, digitsW]
    by_cases h : n / 10 < m / 10
    · apply append_lt_of_lt
      · rw [digitsW_length, digitsW_length]
      · apply ih _ _ h
        rw [Nat.pow_succ] at h2; omega
    · have e : n / 10 = m / 10 := by omega
      rw [e]
      apply append_lt_append
      rw [List.cons_lt_cons_iff]
      exact Or.inl (digit_lt (by omega))

theorem insertDot_lt (k : Nat) : ∀ {x y : Str}, x.length = y.length → x < y →
    x.take k ++ '.' :: x.drop k < y.take k ++ '.' :: y.drop k := by
  induction k with
  | zero =>
    intro x y _ h
    rw [List.take_zero, List.take_zero, List.nil_append, List.nil_append, List.cons_lt_cons_iff]
    exact Or.inr ⟨rfl, h⟩
  | succ k ih =>
    intro x y hl h
    cases x with
    | nil =>
      cases y with
      | nil => exact absurd h (List.lt_irrefl _)
      | cons => cases hl
    | cons a x =>
      cases y with
      | nil => cases hl
      | cons b y =>
        simp only [List.take_succ_cons, List.drop_succ_cons, List.cons_append]
        rw [List.cons_lt_cons_iff]
        rcases List.cons_lt_cons_iff.1 h with h' | ⟨h1, h2⟩
        · exact Or.inl h'
        · exact Or.inr ⟨h1, ih (by simpa using hl) h2⟩

end Str

namespace Spec

/-- The name of a map in 8.3 form: the prefix, zeros, and the number — eleven characters with a dot after the
eighth. -/
def Is83 (name namePrefix : Str) (number : Int) : Prop :=
  ∃ (a b : Str) (zeros : Nat), a.length = 8 ∧ b.length = 3 ∧ name = a ++ '.' :: b ∧
    a ++ b = namePrefix ++ List.replicate zeros '0' ++ Str.ofInt number

end Spec

theorem pcrName_full {namePrefix : Str} {fmap ext i : Int}
    (h : namePrefix.length + (Str.ofInt (fmap + (i - 1) * ext)).length ≤ 11) :
    ∃ full : Str, full.length = 11 ∧
      full = namePrefix ++ List.replicate (11 - namePrefix.length - (Str.ofInt (fmap + (i - 1) * ext)).length) '0'
        ++ Str.ofInt (fmap + (i - 1) * ext) ∧
      pcrName namePrefix fmap ext i = full.take 8 ++ '.' :: full.drop 8 := by
  refine ⟨_, ?_, rfl, ?_⟩
  · rw [List.length_append, List.length_append, List.length_replicate]; omega
  · unfold pcrName mapNumber
    dsimp only
    congr 2
    apply List.take_of_length_le
    rw [List.length_drop, List.length_append, List.length_append, List.length_replicate]; omega

/-- **C50** (the part that holds). As long as prefix and number have at most eleven characters together, map
`i` is named in 8.3 form with the number `fmap + (i-1)*ext`; two such maps have the same name only if they
have the same number; and with a positive extension step (and a first number not negative) later maps have
later names. What is missing: longer prefixes or numbers (`pcr_name_collision`), and a step of 0
(`pcr_name_step_zero`). -/
theorem pcr_names_partial (namePrefix : Str) (fmap ext i : Int)
    (hi : namePrefix.length + (Str.ofInt (fmap + (i - 1) * ext)).length ≤ 11) :
    Spec.Is83 (pcrName namePrefix fmap ext i) namePrefix (fmap + (i - 1) * ext) ∧
    ∀ j : Int, namePrefix.length + (Str.ofInt (fmap + (j - 1) * ext)).length ≤ 11 →
      (0 ≤ fmap + (i - 1) * ext → 0 ≤ fmap + (j - 1) * ext → ext ≠ 0 → i ≠ j →
        pcrName namePrefix fmap ext i ≠ pcrName namePrefix fmap ext j) ∧
      (0 ≤ fmap + (i - 1) * ext → 0 < ext → i < j →
        pcrName namePrefix fmap ext i < pcrName namePrefix fmap ext j) := by
  obtain ⟨full, hl, hf, hn⟩ := pcrName_full hi
  refine ⟨⟨full.take 8, full.drop 8,
    11 - namePrefix.length - (Str.ofInt (fmap + (i - 1) * ext)).length, ?_, ?_, hn, ?_⟩, ?_⟩
  · rw [List.length_take, hl]; rfl
  · rw [List.length_drop, hl]
  · rw [List.take_append_drop]; exact hf
  · have order : ∀ i j : Int, namePrefix.length + (Str.ofInt (fmap + (i - 1) * ext)).length ≤ 11 →
        namePrefix.length + (Str.ofInt (fmap + (j - 1) * ext)).length ≤ 11 → 0 ≤ fmap + (i - 1) * ext →
        fmap + (i - 1) * ext < fmap + (j - 1) * ext →
        pcrName namePrefix fmap ext i < pcrName namePrefix fmap ext j := by
      intro i j hi hj h0 hlt
      obtain ⟨f1, hl1, hf1, hn1⟩ := pcrName_full hi
      obtain ⟨f2, hl2, hf2, hn2⟩ := pcrName_full hj
      rw [hn1, hn2]
      apply Str.insertDot_lt 8 (by rw [hl1, hl2])
      have enat : ∀ z : Int, 0 ≤ z → Str.ofInt z = Str.ofNat z.toNat := by
        intro z hz
        unfold Str.ofInt
        rw [if_neg (by omega)]
        congr 1
        omega
      rw [enat _ h0] at hf1 hi
      rw [enat _ (by omega)] at hf2 hj
      rw [hf1, hf2, List.append_assoc, List.append_assoc, Str.padded_eq _ _ (by omega),
        Str.padded_eq _ _ (by omega)]
      exact Str.append_lt_append _ (Str.digitsW_lt _ _ _ (by omega) (Str.lt_pow_of_length _ _ (by omega)))
    intro j hj
    refine ⟨?_, ?_⟩
    · intro h0 h0' he hij heq
      have hne : fmap + (i - 1) * ext ≠ fmap + (j - 1) * ext := by
        intro h
        have : (i - j) * ext = 0 := by linarith
        rcases Int.mul_eq_zero.1 this with h | h
        · omega
        · exact he h
      rcases lt_or_gt_of_ne hne with h | h
      · have := order i j hi hj h0 h
        rw [heq] at this
        exact List.lt_irrefl _ this
      · have := order j i hj hi h0' h
        rw [heq] at this
        exact List.lt_irrefl _ this
    · intro h0 he hij
      apply order i j hi hj h0
      have : 0 < (j - i) * ext := Int.mul_pos (by omega) he
      linarith

example : pcrName "pr".toList 1 6 3 = "pr000000.013".toList := by decide +kernel

/-- C50 fails when prefix and number are too long: the number is cut and two maps get the same name. -/
theorem pcr_name_collision :
    pcrName "rainfall24".toList 1 1 10 = "rainfall.241".toList ∧
    pcrName "rainfall24".toList 1 1 10 = pcrName "rainfall24".toList 1 1 11 := by decide +kernel

/-- C50 fails for every run with a step of 0: all maps have the same name. -/
theorem pcr_name_step_zero (namePrefix : Str) (fmap i j : Int) :
    pcrName namePrefix fmap 0 i = pcrName namePrefix fmap 0 j := by
  unfold pcrName mapNumber
  rw [Int.mul_zero, Int.mul_zero]


/-! ## C51 -/

namespace Spec

/-- The seconds in a unit written in the data set (none for units of no fixed length). -/
def writtenSeconds (name : Str) : Option ℚ :=
  Dict.get? ([("seconds", 1), ("minutes", 60), ("hours", 3600), ("3h steps", 10800), ("6h steps", 21600),
    ("12h steps", 43200), ("days", 86400)].map fun p => (p.1.toList, p.2)) name

/-- The seconds in a GRIB step unit (none for units of no fixed length). -/
def gribSeconds (u : Str) : Option ℚ :=
  Dict.get? ([("s", 1), ("m", 60), ("h", 3600), ("3h", 10800), ("6h", 21600), ("12h", 43200),
    ("D", 86400)].map fun p => (p.1.toList, p.2)) u

/-- The step units of GRIB with their CF names. -/
def gribUnits : List (Str × Str) :=
  [("s", "seconds"), ("m", "minutes"), ("h", "hours"), ("3h", "3h steps"), ("6h", "6h steps"),
    ("12h", "12h steps"), ("D", "days"), ("M", "months"), ("Y", "years"), ("10Y", "10Y steps"),
    ("30Y", "30Y steps"), ("C", "centuries")].map fun p => (p.1.toList, p.2.toList)

end Spec

theorem unitName_iff (u n : Str) : unitName u = some n ↔ (u, n) ∈ Spec.gribUnits := by
  unfold unitName
  constructor
  · exact Dict.mem_of_get?
  · exact Dict.get?_of_mem (by decide +kernel)

theorem unit_tables : ∀ p ∈ Spec.gribUnits, Spec.writtenSeconds p.2 = (unitHours p.1).map (· * 3600) ∧
    Spec.gribSeconds p.1 = (unitHours p.1).map (· * 3600) ∧ ∀ h ∈ unitHours p.1, 0 < h := by
  decide +kernel

theorem unitHours_known {u : Str} {h : ℚ} (hu : unitHours u = some h) : ∃ n, unitName u = some n := by
  have hk : u ∈ Dict.keys ([("s", (1 / 3600 : ℚ)), ("m", 1 / 60), ("h", 1), ("3h", 3), ("6h", 6), ("12h", 12),
    ("D", 24)].map fun p => (p.1.toList, p.2)) := Dict.mem_keys_of_get? hu
  have : ∀ u ∈ Dict.keys ([("s", (1 / 3600 : ℚ)), ("m", 1 / 60), ("h", 1), ("3h", 3), ("6h", 6), ("12h", 12),
    ("D", 24)].map fun p => (p.1.toList, p.2)), (unitName u).isSome := by decide +kernel
  exact Option.isSome_iff_exists.1 (this u hk)

/-- **C51.** The time axis is written iff the unit of the GRIB file is a known one. Each time, in the unit
written, is the same number of seconds as the GRIB step in its unit (units of fixed length); the variable is
integer iff all times are; and without a request, or when the requested unit is unknown or either unit has no
fixed length, the GRIB unit and the GRIB steps are written. -/
theorem time_axis (grib : Str) (requested : Option Str) (times : List Int) :
    ((∃ tv, timeAxis grib requested times = .ok tv) ↔ ∃ name, (grib, name) ∈ Spec.gribUnits) ∧
    ∀ tv, timeAxis grib requested times = .ok tv →
      (∃ name, (grib, name) ∈ Spec.gribUnits ∧ tv.values.length = times.length ∧
      (∀ sec, Spec.gribSeconds grib = some sec → ∃ sec', Spec.writtenSeconds tv.unit = some sec' ∧ 0 < sec' ∧
        tv.values.map (· * sec') = times.map fun t : Int => (t : ℚ) * sec) ∧
      (tv.int = true ↔ ∀ v ∈ tv.values, ∃ z : Int, v = z) ∧
      (((requested = none ∨ requested = some grib) ∨
        (∃ out, requested = some out ∧ ((∀ n, (out, n) ∉ Spec.gribUnits) ∨ Spec.gribSeconds out = none ∨
          Spec.gribSeconds grib = none))) → tv.unit = name ∧ tv.values = times.map fun t : Int => (t : ℚ)) ∧
      (∀ out oname so sg, requested = some out → (out, oname) ∈ Spec.gribUnits → Spec.gribSeconds out = some so →
        Spec.gribSeconds grib = some sg → tv.unit = oname)) := by
  have kname : ∀ {u n}, unitName u = some n → Spec.writtenSeconds n = (unitHours u).map (· * 3600) ∧
      Spec.gribSeconds u = (unitHours u).map (· * 3600) ∧ ∀ h ∈ unitHours u, 0 < h :=
    fun {u n} h => unit_tables (u, n) ((unitName_iff u n).1 h)
  have uniq : ∀ {u n m}, unitName u = some n → (u, m) ∈ Spec.gribUnits → m = n := by
    intro u n m h hm
    rw [← unitName_iff, h] at hm
    exact (Option.some.inj hm).symm
  have dnone : ∀ {u n}, unitName u = some n → Spec.gribSeconds u = none → unitHours u = none := by
    intro u n h h0
    rw [(kname h).2.1] at h0
    exact Option.map_eq_none_iff.1 h0
  have ints : ∀ v : ℚ, v.den = 1 ↔ ∃ z : Int, v = z := fun v =>
    ⟨fun h => ⟨v.num, (Rat.den_eq_one_iff v).1 h |>.symm⟩, fun ⟨z, h⟩ => by rw [h]; rfl⟩
  -- the case in which the GRIB unit is kept
  have keepOk : ∀ {name : Str}, unitName grib = some name →
      (∀ sec, Spec.gribSeconds grib = some sec → ∃ sec', Spec.writtenSeconds name = some sec' ∧ 0 < sec' ∧
        (times.map fun t : Int => (t : ℚ)).map (· * sec') = times.map fun t : Int => (t : ℚ) * sec) ∧
      (true = true ↔ ∀ v ∈ times.map (fun t : Int => (t : ℚ)), ∃ z : Int, v = z) := by
    intro name hn
    refine ⟨?_, ⟨fun _ v hv => ?_, fun _ => rfl⟩⟩
    · intro sec hs
      have k := kname hn
      refine ⟨sec, by rw [k.1, ← k.2.1, hs], ?_, by rw [List.map_map]; rfl⟩
      rw [k.2.1] at hs
      obtain ⟨h, hh, rfl⟩ := Option.map_eq_some_iff.1 hs
      have := k.2.2 h hh
      positivity
    · obtain ⟨t, -, rfl⟩ := List.mem_map.1 hv
      exact ⟨t, rfl⟩
  cases hg : unitName grib with
  | none =>
    have hnone : ∀ name, (grib, name) ∉ Spec.gribUnits := fun name h => by
      rw [← unitName_iff, hg] at h; cases h
    have herr : timeAxis grib requested times = .error .keyError := by
      unfold timeAxis
      dsimp only
      rw [hg]
      cases requested with
      | none => rfl
      | some out =>
        dsimp only
        cases ho : unitName out with
        | none => rfl
        | some oname =>
          dsimp only
          have : out ≠ grib := fun h => by rw [h, hg] at ho; cases ho
          rw [if_neg this]
          cases hh : unitHours grib with
          | none => cases unitHours out <;> rfl
          | some h =>
            obtain ⟨n, hn⟩ := unitHours_known hh
            rw [hg] at hn; cases hn
    refine ⟨⟨fun ⟨tv, h⟩ => ?_, fun ⟨name, h⟩ => absurd h (hnone name)⟩, fun tv h => ?_⟩
    · rw [herr] at h; cases h
    · rw [herr] at h; cases h
  | some name =>
    have hmem := (unitName_iff grib name).1 hg
    obtain ⟨k1, k2⟩ := keepOk hg
    -- the result, in one of two forms
    have hres : (timeAxis grib requested times = .ok ⟨name, true, times.map fun t : Int => (t : ℚ)⟩ ∧
        (∀ out oname so sg, requested = some out → (out, oname) ∈ Spec.gribUnits →
          Spec.gribSeconds out = some so → Spec.gribSeconds grib = some sg → name = oname)) ∨
        (∃ out oname ho hg', requested = some out ∧ out ≠ grib ∧ unitName out = some oname ∧
          unitHours out = some ho ∧ unitHours grib = some hg' ∧
          timeAxis grib requested times = .ok ⟨oname,
            decide (∀ v ∈ (times.map fun t : Int => (t : ℚ)).map (fun t => t * hg' / ho), v.den = 1),
            (times.map fun t : Int => (t : ℚ)).map (fun t => t * hg' / ho)⟩) := by
      unfold timeAxis
      dsimp only
      rw [hg]
      cases requested with
      | none => exact Or.inl ⟨rfl, fun out oname so sg h => by cases h⟩
      | some out =>
        dsimp only
        cases ho : unitName out with
        | none =>
          refine Or.inl ⟨rfl, ?_⟩
          intro out' oname so sg h hm
          injection h with h
          subst h
          rw [← unitName_iff, ho] at hm
          cases hm
        | some oname =>
          dsimp only
          by_cases he : out = grib
          · rw [if_pos he]
            have : oname = name := by rw [he, hg] at ho; exact (Option.some.inj ho).symm
            refine Or.inl ⟨by rw [this], ?_⟩
            intro out' oname' so sg h hm _ _
            injection h with h
            rw [← h] at hm
            rw [uniq ho hm]
            exact this.symm
          · rw [if_neg he]
            cases hho : unitHours out with
            | none =>
              refine Or.inl ⟨rfl, ?_⟩
              intro out' oname' so sg h hm hso _
              injection h with h
              rw [← h, (kname ho).2.1, hho] at hso
              cases hso
            | some h1 =>
              cases hhg : unitHours grib with
              | none =>
                refine Or.inl ⟨rfl, ?_⟩
                intro out' oname' so sg h hm _ hsg
                rw [(kname hg).2.1, hhg] at hsg
                cases hsg
              | some h2 => exact Or.inr ⟨out, oname, h1, h2, rfl, he, ho, hho, rfl, rfl⟩
    rcases hres with ⟨hr, hun⟩ | ⟨out, oname, ho, hg', hreq, hne, hon, hho, hhg, hr⟩
    · refine ⟨⟨fun _ => ⟨name, hmem⟩, fun _ => ⟨_, hr⟩⟩, fun tv h => ?_⟩
      rw [hr] at h
      have h := Except.ok.inj h
      subst h
      exact ⟨name, hmem, by rw [List.length_map], k1, k2, fun _ => ⟨rfl, rfl⟩, hun⟩
    · refine ⟨⟨fun _ => ⟨name, hmem⟩, fun _ => ⟨_, hr⟩⟩, fun tv h => ?_⟩
      rw [hr] at h
      have h := Except.ok.inj h
      subst h
      have ko := kname hon
      have kg := kname hg
      have hpo := ko.2.2 ho hho
      refine ⟨name, hmem, by simp, ?_, ?_, ?_, ?_⟩
      · intro sec hs
        rw [kg.2.1, hhg] at hs
        have hs := Option.some.inj hs
        refine ⟨ho * 3600, by rw [ko.1, hho]; rfl, by positivity, ?_⟩
        rw [List.map_map, List.map_map]
        apply List.map_congr_left
        intro t _
        simp only [Function.comp]
        rw [← hs]
        field_simp
      · dsimp only
        rw [decide_eq_true_eq]
        exact ⟨fun h v hv => (ints v).1 (h v hv), fun h v hv => (ints v).2 (h v hv)⟩
      · rintro ((h | h) | ⟨out', h, h'⟩)
        · rw [h] at hreq; cases hreq
        · rw [h] at hreq; injection hreq with hreq; exact absurd hreq.symm hne
        · rw [hreq] at h
          injection h with h
          subst h
          rcases h' with h' | h' | h'
          · exact absurd ((unitName_iff _ _).1 hon) (h' _)
          · rw [dnone hon h'] at hho; cases hho
          · rw [dnone hg h'] at hhg; cases hhg
      · intro out' oname' so sg h hm _ _
        rw [hreq] at h
        injection h with h
        rw [← h] at hm
        exact (uniq hon hm).symm

example : timeAxis "h".toList (some "D".toList) [6, 24] = .ok ⟨"days".toList, false, [1 / 4, 1]⟩ ∧
    timeAxis "M".toList (some "D".toList) [1, 2] = .ok ⟨"months".toList, true, [1, 2]⟩ ∧
    timeAxis "x".toList none [1] = .error .keyError := by decide +kernel

/-! ## C53 -/

/-- The mask of a clone map. -/
theorem outside_cloneMask {n : Nat} (float : Bool) (clone : Fin n → Num) (mv : Num) (i : Fin n) :
    outside (cloneMask float clone mv) i = (if float then isClose (clone i) mv else decide (clone i = mv)) := by
  unfold cloneMask outside
  dsimp only
  by_cases h : ∃ i, (if float = true then isClose (clone i) mv else decide (clone i = mv)) = true
  · rw [if_pos h]
  · rw [if_neg h]
    have := not_exists.1 h i
    rw [Bool.not_eq_true] at this
    exact this.symm

namespace Spec

/-- The clone map tells inside from outside without doubt: no cell is closer to the missing value than
0.001 percent (plus 1e-8) without being equal to it, and the missing value is a number. -/
def ClearClone {n : Nat} (clone : Fin n → Num) (mv : Num) : Prop :=
  ∃ q : ℚ, mv = .fin q ∧ ∀ i c, clone i = .fin c → |c - q| ≤ 1 / 100000000 + 1 / 100000 * |q| → c = q

end Spec

theorem outside_clear {n : Nat} {clone : Fin n → Num} {mv : Num} (h : Spec.ClearClone clone mv) (float : Bool)
    (i : Fin n) : outside (cloneMask float clone mv) i = true ↔ clone i = mv := by
  rw [outside_cloneMask]
  cases float with
  | false => simp
  | true =>
    obtain ⟨q, rfl, hq⟩ := h
    simp only [if_true]
    cases hc : clone i with
    | nan => simp [isClose]
    | fin c =>
      unfold isClose
      rw [decide_eq_true_eq, Num.fin_inj]
      refine ⟨hq i c hc, ?_⟩
      rintro rfl
      rw [sub_self, abs_zero]
      positivity

/-- **C53** (the part that holds). A written PCRaster map has the missing value in the cells outside the
clone, masked, or NaN, and the original value elsewhere. What is missing: clone maps with values very close to
the missing value (`clone_close_value`). -/
theorem pcr_output_partial {n : Nat} (float : Bool) (clone : Fin n → Num) (mv : Num) (values : Arr n)
    (hc : Spec.ClearClone clone mv) (i : Fin n) :
    (clone i = mv ∨ values.masked i = true ∨ values.data i = .nan →
      pcrWrite (cloneMask float clone mv) mv values i = mv) ∧
    (clone i ≠ mv → values.masked i = false → values.data i ≠ .nan →
      pcrWrite (cloneMask float clone mv) mv values i = values.data i) := by
  have ho := outside_clear hc float i
  have hn : (values.data i).isNan = true ↔ values.data i = .nan := by
    cases values.data i <;> simp [Num.isNan]
  unfold pcrWrite
  dsimp only
  constructor
  · rintro (h | h | h)
    · rw [ho.2 h]; simp
    · rw [h]
      by_cases h' : (values.data i).isNan = true
      · rw [h']; simp
      · rw [Bool.not_eq_true] at h'
        rw [h']; simp
    · rw [hn.2 h]; simp
  · intro h1 h2 h3
    have h1' : outside (cloneMask float clone mv) i = false := by
      rw [← Bool.not_eq_true, ho]; exact h1
    have h3' : (values.data i).isNan = false := by
      rw [← Bool.not_eq_true, hn]; exact h3
    rw [h1', h2, h3']; simp

example : Spec.ClearClone (fun i : Fin 3 => if i = 0 then .fin (-9999) else 1) (.fin (-9999)) := by
  refine ⟨-9999, rfl, ?_⟩
  intro i c hc hlt
  dsimp only at hc
  by_cases h : i = 0
  · rw [if_pos h, Num.fin_inj] at hc; exact hc.symm
  · rw [if_neg h] at hc
    have : c = 1 := by
      have h1 : (1 : Num) = .fin 1 := rfl
      rw [h1, Num.fin_inj] at hc
      exact hc.symm
    rw [this] at hlt
    norm_num [abs_of_pos, abs_of_neg] at hlt

/-- C53 fails for a clone whose values come close to the missing value: the cell -9998.95 of a clone with
missing value -9999 is taken for outside. -/
theorem clone_close_value :
    pcrWrite (cloneMask true (fun _ : Fin 1 => .fin (-999895 / 100)) (.fin (-9999))) (.fin (-9999))
      (.plain fun _ => 5) 0 = .fin (-9999) := by decide +kernel


/-! ## C52 -/

namespace Spec

/-- netCDF's fill value of a format: what is not written, or missing, in a variable of this format. -/
def noData : ValueFormat → ℚ
  | .i1 => -127
  | .i2 => -32767
  | .i4 => -2147483647
  | .f8 => 9969209968386869 * 10 ^ 21

/-- The packed number `q` can be held by a variable of the format: for a whole-number format, it rounds to a number of the
range that is not the fill value. -/
def Storable (fmt : ValueFormat) (q : ℚ) : Prop :=
  match fmt with
  | .i1 => -126 - 1 / 2 < q ∧ q < 127 + 1 / 2
  | .i2 => -32766 - 1 / 2 < q ∧ q < 32767 + 1 / 2
  | .i4 => -2147483646 - 1 / 2 < q ∧ q < 2147483647 + 1 / 2
  | .f8 => q ≠ 9969209968386869 * 10 ^ 21

/-- What a CF reader makes of a stored cell: missing if it is the fill value or out of the valid range
(attributes in packed units), else unpacked. -/
def readCell (p : Packing) (vmin vmax : Option ℚ) (x : ℚ) : Option ℚ :=
  if x = noData p.fmt ∨ (∃ l ∈ vmin, x < l) ∨ (∃ l ∈ vmax, l < x) then none else some (x * p.scale + p.offset)

end Spec

theorem roundHalfEven_int (z : Int) : Str.roundHalfEven (z : ℚ) = z := by
  unfold Str.roundHalfEven
  dsimp only
  rw [Int.floor_intCast, sub_self, if_pos (by norm_num)]

theorem roundHalfEven_close (x : ℚ) : |(Str.roundHalfEven x : ℚ) - x| ≤ 1 / 2 := by
  have h1 := Int.floor_le x
  have h2 := Int.lt_floor_add_one x
  unfold Str.roundHalfEven
  dsimp only
  split_ifs with ha hb hc <;> rw [abs_le] <;> push_cast <;> constructor <;> linarith

/-- the nearest whole number; of two, the even one. -/
theorem roundHalfEven_iff (x : ℚ) (z : Int) :
    Str.roundHalfEven x = z ↔ |(z : ℚ) - x| < 1 / 2 ∨ (|(z : ℚ) - x| = 1 / 2 ∧ z % 2 = 0) := by
  have h1 := Int.floor_le x
  have h2 := Int.lt_floor_add_one x
  have key : ∀ w : Int, (|(w : ℚ) - x| < 1 / 2 ∨ (|(w : ℚ) - x| = 1 / 2 ∧ w % 2 = 0)) →
      ∀ w' : Int, (|(w' : ℚ) - x| < 1 / 2 ∨ (|(w' : ℚ) - x| = 1 / 2 ∧ w' % 2 = 0)) → w = w' := by
    intro w hw w' hw'
    have a1 : |(w : ℚ) - x| ≤ 1 / 2 := by rcases hw with h | h; exact h.le; exact h.1.le
    have a2 : |(w' : ℚ) - x| ≤ 1 / 2 := by rcases hw' with h | h; exact h.le; exact h.1.le
    have b1 := abs_le.1 a1
    have b2 := abs_le.1 a2
    have c1 : (w : ℚ) - w' ≤ 1 := by linarith
    have c2 : (w' : ℚ) - w ≤ 1 := by linarith
    have d1 : w - w' ≤ 1 := by exact_mod_cast c1
    have d2 : w' - w ≤ 1 := by exact_mod_cast c2
    by_contra hne
    rcases hw with h | h
    · have := abs_lt.1 h
      have c1 : (w : ℚ) - w' < 1 := by linarith
      have c2 : (w' : ℚ) - w < 1 := by linarith
      have d1 : w - w' < 1 := by exact_mod_cast c1
      have d2 : w' - w < 1 := by exact_mod_cast c2
      omega
    · rcases hw' with h' | h'
      · have := abs_lt.1 h'
        have c1 : (w : ℚ) - w' < 1 := by linarith
        have c2 : (w' : ℚ) - w < 1 := by linarith
        have d1 : w - w' < 1 := by exact_mod_cast c1
        have d2 : w' - w < 1 := by exact_mod_cast c2
        omega
      · have := h.2
        have := h'.2
        omega
  have hval : (|(Str.roundHalfEven x : ℚ) - x| < 1 / 2 ∨
      (|(Str.roundHalfEven x : ℚ) - x| = 1 / 2 ∧ Str.roundHalfEven x % 2 = 0)) := by
    unfold Str.roundHalfEven
    dsimp only
    split_ifs with ha hb hc
    · left; rw [abs_lt]; constructor <;> linarith
    · left; rw [abs_lt]; push_cast; constructor <;> linarith
    · right
      have : x - (⌊x⌋ : ℚ) = 1 / 2 := le_antisymm (not_lt.1 hb) (not_lt.1 ha)
      refine ⟨?_, hc⟩
      rw [show (⌊x⌋ : ℚ) - x = -(1 / 2) by linarith, abs_neg, abs_of_pos (by norm_num)]
    · right
      have : x - (⌊x⌋ : ℚ) = 1 / 2 := le_antisymm (not_lt.1 hb) (not_lt.1 ha)
      refine ⟨?_, by omega⟩
      push_cast
      rw [show (⌊x⌋ : ℚ) + 1 - x = 1 / 2 by linarith, abs_of_pos (by norm_num)]
  constructor
  · rintro rfl; exact hval
  · intro h; exact key _ hval z h

theorem pack_fill (p : Packing) (hs : p.scale ≠ 0) : p.pack (p.fmt.fill * p.scale + p.offset) = p.fmt.fill := by
  unfold Packing.pack
  dsimp only
  have e : (p.fmt.fill * p.scale + p.offset - p.offset) / p.scale = p.fmt.fill := by field_simp; ring
  rw [e]
  cases hf : p.fmt with
  | f8 => rfl
  | i1 =>
    have : ValueFormat.i1.fill = ((-127 : Int) : ℚ) := by norm_num [ValueFormat.fill]
    rw [this, roundHalfEven_int]; rfl
  | i2 =>
    have : ValueFormat.i2.fill = ((-32767 : Int) : ℚ) := by norm_num [ValueFormat.fill]
    rw [this, roundHalfEven_int]; rfl
  | i4 =>
    have : ValueFormat.i4.fill = ((-2147483647 : Int) : ℚ) := by norm_num [ValueFormat.fill]
    rw [this, roundHalfEven_int]; rfl

theorem ncWrite_stored {n : Nat} {mask : Option (Fin n → Bool)} {p : Packing} (hs : p.scale ≠ 0)
    {field : Fin n → Num} {stored : Fin n → ℚ} (h : ncWrite mask p field = .ok stored) (i : Fin n) :
    (outside mask i = true ∨ field i = .nan → stored i = p.fmt.fill) ∧
    (∀ v, outside mask i = false → field i = .fin v → stored i = p.pack v) := by
  unfold ncWrite at h
  cases mask with
  | none => cases h
  | some m =>
    have h := Except.ok.inj h
    subst h
    dsimp only [outside]
    refine ⟨?_, ?_⟩
    · rintro (h | h)
      · rw [h]
        exact pack_fill p hs
      · rw [h]
        cases m i <;> exact pack_fill p hs
    · intro v h1 h2
      rw [h1, h2]; rfl

theorem ncWrite_ok_iff {n : Nat} {mask : Option (Fin n → Bool)} {p : Packing} {field : Fin n → Num} :
    (∃ stored, ncWrite mask p field = .ok stored) ↔ mask ≠ none := by
  cases mask with
  | none => simp [ncWrite]
  | some m => simp [ncWrite]

theorem noData_fill (fmt : ValueFormat) : Spec.noData fmt = fmt.fill := by cases fmt <;> rfl

theorem readCell_eq (p : Packing) (vmin vmax : Option ℚ) (x : ℚ) : Spec.readCell p vmin vmax x =
    if x = p.fmt.fill ∨ (∃ l ∈ vmin, x < l) ∨ (∃ l ∈ vmax, l < x) then none else some (x * p.scale + p.offset) := by
  unfold Spec.readCell
  rw [noData_fill]

theorem holds_int {fmt : ValueFormat} {q : ℚ} (h8 : fmt ≠ .f8) (h : Spec.Storable fmt q) :
    |Str.roundHalfEven q| ≤ fmt.maxInt ∧ (Str.roundHalfEven q : ℚ) ≠ fmt.fill := by
  obtain ⟨c1, c2⟩ := abs_le.1 (roundHalfEven_close q)
  have key : ∀ L : Int, (-((L - 1 : Int) : ℚ) - 1 / 2 < q ∧ q < (L : ℚ) + 1 / 2) →
      |Str.roundHalfEven q| ≤ L ∧ (Str.roundHalfEven q : ℚ) ≠ ((-L : Int) : ℚ) := by
    rintro L ⟨h1, h2⟩
    have a1 : Str.roundHalfEven q < L + 1 := by
      have : (Str.roundHalfEven q : ℚ) < ((L + 1 : Int) : ℚ) := by push_cast; linarith
      exact_mod_cast this
    have a2 : -L < Str.roundHalfEven q := by
      have : ((-L : Int) : ℚ) < (Str.roundHalfEven q : ℚ) := by push_cast at h1 ⊢; linarith
      exact_mod_cast this
    refine ⟨abs_le.2 ⟨by omega, by omega⟩, ?_⟩
    intro e
    have e : Str.roundHalfEven q = -L := by exact_mod_cast e
    omega
  cases fmt with
  | f8 => exact absurd rfl h8
  | i1 => obtain ⟨a, b⟩ := key 127 (by norm_num [Spec.Storable] at h ⊢; exact h); exact ⟨a, by norm_num [ValueFormat.fill] at b ⊢; exact b⟩
  | i2 => obtain ⟨a, b⟩ := key 32767 (by norm_num [Spec.Storable] at h ⊢; exact h); exact ⟨a, by norm_num [ValueFormat.fill] at b ⊢; exact b⟩
  | i4 => obtain ⟨a, b⟩ := key 2147483647 (by norm_num [Spec.Storable] at h ⊢; exact h); exact ⟨a, by norm_num [ValueFormat.fill] at b ⊢; exact b⟩

theorem holds_f8 {fmt : ValueFormat} {v scale offset : ℚ} (h8 : fmt = .f8)
    (h : Spec.Storable fmt ((v - offset) / scale)) (hs : scale ≠ 0) : v ≠ fmt.fill * scale + offset := by
  subst h8
  intro e
  apply h
  rw [e]
  change (ValueFormat.f8.fill * scale + offset - offset) / scale = ValueFormat.f8.fill
  field_simp
  ring

/-- **C52** (the part that holds). Let the clone have a missing cell, the map no masked cell, and the scale
not be zero. Then the map is written, and a reader sees as missing every cell outside the clone, NaN or equal
to the missing value of the interpolation. Any other cell with value `v`: in format `f8` it is read as `v`
exactly, unless `v` is the fill value itself or (positive scale) out of the valid range, when it is missing; in
integer formats, when the packed value is in range, not the fill value, and no valid range is set, it is read
as a number within half a scale unit of `v`. What is missing: clones without missing cells
(`netcdf_full_clone_fails`), masked cells (`netcdf_masked_cell_written`), values that pack to the fill value
(`netcdf_value_lost`). -/
theorem netcdf_roundtrip_partial {n : Nat} (float : Bool) (clone : Fin n → Num) (mv mvOut : Num)
    (hc : Spec.ClearClone clone mv) (hsome : ∃ i, clone i = mv) (p : Packing) (hs : p.scale ≠ 0)
    (a : Arr n) (ha : ∀ i, a.masked i = false) (vmin vmax : Option ℚ) :
    ∃ stored, ncWrite (cloneMask float clone mv) p (ncField mvOut a) = .ok stored ∧ ∀ i,
      (clone i = mv ∨ a.data i = .nan ∨ a.data i = mvOut →
        Spec.readCell p (vmin.map p.limit) (vmax.map p.limit) (stored i) = none) ∧
      (∀ v, clone i ≠ mv → a.data i = .fin v → a.data i ≠ mvOut →
        Spec.Storable p.fmt ((v - p.offset) / p.scale) →
        (p.fmt = .f8 →
          ((∀ l ∈ vmin, l ≤ v) → (∀ l ∈ vmax, v ≤ l) → 0 < p.scale ∨ (vmin = none ∧ vmax = none) →
            Spec.readCell p (vmin.map p.limit) (vmax.map p.limit) (stored i) = some v) ∧
          (0 < p.scale → (∃ l ∈ vmin, v < l) ∨ (∃ l ∈ vmax, l < v) →
            Spec.readCell p (vmin.map p.limit) (vmax.map p.limit) (stored i) = none)) ∧
        (p.fmt ≠ .f8 → vmin = none → vmax = none →
          ∃ w, Spec.readCell p (vmin.map p.limit) (vmax.map p.limit) (stored i) = some w ∧
            |w - v| ≤ |p.scale| / 2)) := by
  have hmask : cloneMask float clone mv ≠ none := by
    obtain ⟨i, hi⟩ := hsome
    intro h
    have := (outside_clear hc float i).2 hi
    rw [h] at this
    cases this
  obtain ⟨stored, hst⟩ := (ncWrite_ok_iff (p := p) (field := ncField mvOut a)).2 hmask
  refine ⟨stored, hst, fun i => ?_⟩
  obtain ⟨w1, w2⟩ := ncWrite_stored hs hst i
  have ho := outside_clear hc float i
  have hfield : ncField mvOut a i = if a.data i = mvOut then .nan else a.data i := by
    unfold ncField
    rw [ha i]
    simp
  refine ⟨?_, ?_⟩
  · intro h
    have : stored i = p.fmt.fill := by
      apply w1
      rcases h with h | h | h
      · exact Or.inl (ho.2 h)
      · right; rw [hfield, h]; split_ifs <;> rfl
      · right; rw [hfield, if_pos h]
    rw [readCell_eq]
    rw [if_pos (Or.inl this)]
  · intro v h1 h2 h3 hold
    have h1' : outside (cloneMask float clone mv) i = false := by
      rw [← Bool.not_eq_true, ho]; exact h1
    have hst' : stored i = p.pack v := w2 v h1' (by rw [hfield, if_neg h3, h2])
    rw [hst']
    refine ⟨?_, ?_⟩
    · intro hf
      have hv := holds_f8 hf hold hs
      have hp : p.pack v = (v - p.offset) / p.scale := by
        unfold Packing.pack
        rw [hf]; rfl
      have hne : (v - p.offset) / p.scale ≠ p.fmt.fill := by
        intro h
        apply hv
        rw [div_eq_iff hs] at h
        linarith
      have hback : (v - p.offset) / p.scale * p.scale + p.offset = v := by
        rw [div_mul_cancel₀ _ hs]; ring
      have hl1 : ∀ l, 0 < p.scale → ((v - p.offset) / p.scale < p.limit l ↔ v < l) := by
        intro l hpos
        unfold Packing.limit
        rw [div_lt_div_iff_of_pos_right hpos]
        constructor <;> intro h <;> linarith
      have hl2 : ∀ l, 0 < p.scale → (p.limit l < (v - p.offset) / p.scale ↔ l < v) := by
        intro l hpos
        unfold Packing.limit
        rw [div_lt_div_iff_of_pos_right hpos]
        constructor <;> intro h <;> linarith
      rw [hp]
      rw [readCell_eq]
      refine ⟨?_, ?_⟩
      · intro k1 k2 k3
        rw [if_neg, hback]
        rintro (h | ⟨l, hl, h⟩ | ⟨l, hl, h⟩)
        · exact hne h
        · obtain ⟨l', hl', rfl⟩ := Option.mem_map.1 hl
          rcases k3 with k3 | ⟨k3, -⟩
          · exact absurd ((hl1 l' k3).1 h) (not_lt.2 (k1 l' hl'))
          · rw [k3] at hl'; cases hl'
        · obtain ⟨l', hl', rfl⟩ := Option.mem_map.1 hl
          rcases k3 with k3 | ⟨-, k3⟩
          · exact absurd ((hl2 l' k3).1 h) (not_lt.2 (k2 l' hl'))
          · rw [k3] at hl'; cases hl'
      · intro hpos h
        rw [if_pos]
        right
        rcases h with ⟨l, hl, h⟩ | ⟨l, hl, h⟩
        · exact Or.inl ⟨p.limit l, Option.mem_map.2 ⟨l, hl, rfl⟩, (hl1 l hpos).2 h⟩
        · exact Or.inr ⟨p.limit l, Option.mem_map.2 ⟨l, hl, rfl⟩, (hl2 l hpos).2 h⟩
    · intro hf hmin hmax
      obtain ⟨hr, hne⟩ := holds_int hf hold
      subst hmin hmax
      have hp : p.pack v = (Str.roundHalfEven ((v - p.offset) / p.scale) : ℚ) := by
        unfold Packing.pack
        have : p.fmt.isInt = true := by
          revert hf
          cases p.fmt <;> simp [ValueFormat.isInt]
        dsimp only
        rw [if_pos this, if_pos hr]
      rw [hp]
      rw [readCell_eq]
      rw [if_neg]
      · refine ⟨_, rfl, ?_⟩
        have hcl := roundHalfEven_close ((v - p.offset) / p.scale)
        set r : ℚ := (Str.roundHalfEven ((v - p.offset) / p.scale) : ℚ) with hr'
        have e : r * p.scale + p.offset - v = (r - (v - p.offset) / p.scale) * p.scale := by
          field_simp
          ring
        rw [e, abs_mul]
        have := mul_le_mul_of_nonneg_right hcl (abs_nonneg p.scale)
        linarith
      · rintro (h | ⟨l, hl, h⟩ | ⟨l, hl, h⟩)
        · exact hne h
        · cases hl
        · cases hl

example : (ncWrite (cloneMask false (fun i : Fin 3 => if i = 0 then .fin (-9999) else 1) (.fin (-9999)))
      ⟨.i2, 1 / 10, 20, fun _ => 0⟩ (ncField (.fin 99) (.plain fun i => if i = 0 then 7 else if i = 1 then 99 else .fin (257 / 10)))).map
        (fun s => [s 0, s 1, s 2]) = .ok [-32767, -32767, 57] := by decide +kernel

/-- C52 fails for every clone map without missing cells: nothing is written (`ValueError`). -/
theorem netcdf_full_clone_fails {n : Nat} (float : Bool) (clone : Fin n → Num) (mv : Num)
    (hc : Spec.ClearClone clone mv) (hfull : ∀ i, clone i ≠ mv) (p : Packing) (field : Fin n → Num) :
    ncWrite (cloneMask float clone mv) p field = .error .valueError := by
  have : cloneMask float clone mv = none := by
    unfold cloneMask
    dsimp only
    rw [if_neg]
    rintro ⟨i, hi⟩
    rw [← outside_cloneMask, outside_clear hc float i] at hi
    exact hfull i hi
  rw [this]; rfl

example : Spec.ClearClone (fun _ : Fin 3 => (1 : Num)) (.fin (-9999)) := by
  refine ⟨-9999, rfl, ?_⟩
  intro i c hc hlt
  have : c = 1 := by
    have h1 : (1 : Num) = .fin 1 := rfl
    dsimp only at hc
    rw [h1, Num.fin_inj] at hc
    exact hc.symm
  rw [this] at hlt
  norm_num [abs_of_pos, abs_of_neg] at hlt

/-- C52 fails for every masked cell inside the clone: the number under the mask is written and read back. -/
theorem netcdf_masked_cell_written {n : Nat} {mask : Option (Fin n → Bool)} {stored : Fin n → ℚ}
    (mvOut : Num) (a : Arr n) (i : Fin n) (v : ℚ) (hm : a.masked i = true) (hv : a.data i = .fin v)
    (hin : outside mask i = false) (hfill : v ≠ 9969209968386869 * 10 ^ 21)
    (h : ncWrite mask ⟨.f8, 1, 0, fun _ => 0⟩ (ncField mvOut a) = .ok stored) :
    Spec.readCell ⟨.f8, 1, 0, fun _ => 0⟩ none none (stored i) = some v := by
  have hf : ncField mvOut a i = .fin v := by
    unfold ncField
    rw [hm, hv]; rfl
  have := (ncWrite_stored (by norm_num) h i).2 v hin hf
  rw [this]
  have hp : Packing.pack ⟨.f8, 1, 0, fun _ => 0⟩ v = v := by
    unfold Packing.pack
    simp [ValueFormat.isInt]
  rw [hp]
  rw [readCell_eq]
  rw [if_neg]
  · simp
  · rintro (h | ⟨l, hl, h⟩ | ⟨l, hl, h⟩)
    · exact hfill h
    · cases hl
    · cases hl

/-- C52 fails for a valid value that packs to the fill value: it is read as missing. -/
theorem netcdf_value_lost : Spec.readCell ⟨.i2, 1 / 10, 0, fun _ => 0⟩ none none
    (Packing.pack ⟨.i2, 1 / 10, 0, fun _ => 0⟩ (-32767 / 10)) = none := by
  rw [readCell_eq]
  rw [if_pos]
  left
  decide +kernel

/-! ## C54 -/

theorem gridLoop_length {α : Type} (change : Option Step) (second : Bool) (l : List (Step × α)) :
    (gridLoop change second l).length = l.length := by
  induction l generalizing second with
  | nil => rfl
  | cons p l ih => rw [gridLoop, List.length_cons, ih, List.length_cons]

theorem pyEq_iff (a b : Step) : Step.pyEq a b = true ↔ a = b := by
  unfold Step.pyEq
  cases a; cases b
  simp only [Bool.and_eq_true, beq_iff_eq, Step.mk.injEq, and_assoc]

/-- The loop over the maps: every map once, in order, with the second grid from the change step on. -/
theorem gridLoop_get {α : Type} (change : Option Step) (l : List (Step × α)) (second : Bool) (k : Nat) :
    ∀ t v, l[k]? = some (t, v) → ∃ b, (gridLoop change second l)[k]? = some (t, v, b) ∧
      (b = true ↔ second = true ∨ ∃ c, change = some c ∧ ∃ (j : Nat) (w : α), j ≤ k ∧ l[j]? = some (c, w)) := by
  induction l generalizing second k with
  | nil => intro t v h; cases h
  | cons p l ih =>
    obtain ⟨t0, v0⟩ := p
    have hnow : (second || isChange change t0) = true ↔ second = true ∨ change = some t0 := by
      unfold isChange
      cases change with
      | none => simp
      | some c =>
        rw [Bool.or_eq_true, pyEq_iff, Option.some.injEq]
        exact ⟨fun h => h.imp_right Eq.symm, fun h => h.imp_right Eq.symm⟩
    intro t v h
    rw [gridLoop]
    cases k with
    | zero =>
      injection h with h
      injection h with h1 h2
      subst h1 h2
      refine ⟨_, rfl, ?_⟩
      rw [hnow]
      constructor
      · rintro (h | h)
        · exact Or.inl h
        · exact Or.inr ⟨t0, h, 0, v0, Nat.le_refl _, rfl⟩
      · rintro (h | ⟨c, h, j, w, hj, hw⟩)
        · exact Or.inl h
        · obtain rfl : j = 0 := by omega
          injection hw with hw
          injection hw with hw _
          rw [← hw] at h
          exact Or.inr h
    | succ k =>
      obtain ⟨b, hb1, hb2⟩ := ih (second || isChange change t0) k t v h
      refine ⟨b, hb1, ?_⟩
      rw [hb2, hnow]
      constructor
      · rintro ((h | h) | ⟨c, h, j, w, hj, hw⟩)
        · exact Or.inl h
        · exact Or.inr ⟨t0, h, 0, v0, Nat.zero_le _, rfl⟩
        · exact Or.inr ⟨c, h, j + 1, w, by omega, hw⟩
      · rintro (h | ⟨c, h, j, w, hj, hw⟩)
        · exact Or.inl (Or.inl h)
        · cases j with
          | zero =>
            injection hw with hw
            injection hw with hw _
            rw [← hw] at h
            exact Or.inl (Or.inr h)
          | succ j => exact Or.inr ⟨c, h, j, w, by omega, hw⟩

/-- **C54.** Given maps in time order and a change step that is the first map ending at its time: every map is
written exactly once, in order; map `k` (from 0) is named with number `k + 1` and is rendered on the second
grid if it ends at or after the change step, else on the first. Without a change step all maps are rendered on
the first grid. The netCDF writer uses the same grids and the end steps as times. -/
theorem grid_of_every_step {α β : Type} (namePrefix : Str) (fmap ext : Int) (render : Bool → α → β)
    (values : List (Step × α)) (hsorted : values.Pairwise fun a b => a.1.endStep ≤ b.1.endStep)
    (change : Option Step)
    (hchange : ∀ c, change = some c → ∃ (j : Nat) (w : α), values[j]? = some (c, w) ∧
      ∀ (j' : Nat) (s : Step) (w' : α), values[j']? = some (s, w') → s.endStep = c.endStep → j ≤ j') :
    (writePcraster namePrefix fmap ext render change values).length = values.length ∧
    (writeNetcdf render change values).length = values.length ∧
    ∀ (k : Nat) t v, values[k]? = some (t, v) →
      ∃ b : Bool, (b = true ↔ ∃ c, change = some c ∧ c.endStep ≤ t.endStep) ∧
        (writePcraster namePrefix fmap ext render change values)[k]? =
          some (pcrName namePrefix fmap ext (k + 1), render b v) ∧
        (writeNetcdf render change values)[k]? = some (t.endStep, render b v) := by
  unfold writePcraster writeNetcdf
  refine ⟨by rw [List.length_map, List.length_zipIdx, gridLoop_length],
    by rw [List.length_map, gridLoop_length], ?_⟩
  intro k t v hk
  obtain ⟨b, hb, hb'⟩ := gridLoop_get change values false k t v hk
  refine ⟨b, ?_, ?_, ?_⟩
  · rw [hb']
    constructor
    · rintro (h | ⟨c, hc, j, w, hj, hw⟩)
      · cases h
      · refine ⟨c, hc, ?_⟩
        rcases Nat.lt_or_ge j k with hjk | hjk
        · obtain ⟨h1, h1'⟩ := List.getElem?_eq_some_iff.1 hw
          obtain ⟨h2, h2'⟩ := List.getElem?_eq_some_iff.1 hk
          have := List.pairwise_iff_getElem.1 hsorted j k h1 h2 hjk
          rw [h1', h2'] at this
          exact this
        · obtain rfl : j = k := by omega
          rw [hk] at hw
          injection hw with hw
          injection hw with hw _
          rw [hw]
    · rintro ⟨c, hc, hle⟩
      obtain ⟨j, w, hj, hfirst⟩ := hchange c hc
      refine Or.inr ⟨c, hc, j, w, ?_, hj⟩
      by_contra hlt
      rw [Nat.not_le] at hlt
      obtain ⟨h1, h1'⟩ := List.getElem?_eq_some_iff.1 hj
      obtain ⟨h2, h2'⟩ := List.getElem?_eq_some_iff.1 hk
      have := List.pairwise_iff_getElem.1 hsorted k j h2 h1 hlt
      rw [h1', h2'] at this
      have := hfirst k t v hk (by dsimp only at this; omega)
      omega
  · rw [List.getElem?_map, List.getElem?_zipIdx, hb]
    simp [Nat.add_comm]
  · rw [List.getElem?_map, hb]; rfl

end PyG2P
