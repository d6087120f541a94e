import Verif.Props.TablesShared
import Verif.Props.Messages

/-! # C58 — what the identifier of a table tells apart -/

namespace PyG2P
open Store

namespace Spec

/-- `x` in hundredths, rounded (half to even). -/
def to2 (x : ℚ) : Int := Str.roundHalfEven (x * 100)

/-- Two maps agree as far as an identifier can tell: integer parts of origin and pixel size, and the smallest
and the largest value to two decimals. -/
def MapsAgree (a b : MapGeo) : Prop :=
  Str.truncInt a.origX = Str.truncInt b.origX ∧ Str.truncInt a.origY = Str.truncInt b.origY ∧
  Str.truncInt a.pxlW = Str.truncInt b.pxlW ∧ Str.truncInt a.pxlH = Str.truncInt b.pxlH ∧
  to2 a.min = to2 b.min ∧ to2 a.max = to2 b.max

end Spec

/-- The integer part is between the number and zero, less than one away. -/
theorem truncInt_spec (x : ℚ) : |(Str.truncInt x : ℚ)| ≤ |x| ∧ |x - Str.truncInt x| < 1 := by
  unfold Str.truncInt
  split_ifs with h
  · have h1 := Int.floor_le (-x)
    have h2 := Int.lt_floor_add_one (-x)
    have h3 : (0 : Int) ≤ ⌊-x⌋ := Int.floor_nonneg.2 (by linarith)
    have h4 : (0 : ℚ) ≤ (⌊-x⌋ : ℚ) := by exact_mod_cast h3
    push_cast
    constructor
    · rw [abs_neg, abs_of_nonneg h4, abs_of_neg h]; exact h1
    · rw [abs_lt]; constructor <;> linarith
  · have h0 : 0 ≤ x := not_lt.1 h
    have h1 := Int.floor_le x
    have h2 := Int.lt_floor_add_one x
    have h3 : (0 : Int) ≤ ⌊x⌋ := Int.floor_nonneg.2 h0
    have h4 : (0 : ℚ) ≤ (⌊x⌋ : ℚ) := by exact_mod_cast h3
    constructor
    · rw [abs_of_nonneg h4, abs_of_nonneg h0]; exact h1
    · rw [abs_lt]; constructor <;> linarith

namespace Str

theorem twoDigits_length (k : Nat) : (twoDigits k).length = 2 := rfl

theorem fmt2_form (x : ℚ) : ∃ a : Str, fmt2 x = a ++ '.' :: twoDigits (roundHalfEven (|x| * 100)).toNat := by
  exact ⟨_, rfl⟩

theorem fmt2_chars (x : ℚ) : ∀ c ∈ fmt2 x, IsDigit c ∨ c = '-' ∨ c = '.' := by
  intro c hc
  unfold fmt2 at hc
  dsimp only at hc
  rcases List.mem_append.1 hc with hc | hc
  · rcases List.mem_append.1 hc with hc | hc
    · split_ifs at hc
      · exact Or.inr (Or.inl (List.mem_singleton.1 hc))
      · cases hc
    · exact Or.inl (ofNat_digits _ _ hc)
  · rcases List.mem_cons.1 hc with hc | hc
    · exact Or.inr (Or.inr hc)
    · unfold twoDigits at hc
      rcases List.mem_cons.1 hc with hc | hc
      · exact Or.inl (hc ▸ isDigit_digit _)
      · exact Or.inl (List.mem_singleton.1 hc ▸ isDigit_digit _)

theorem fmt2_last (x : ℚ) : ∃ s c, fmt2 x = s ++ [c] ∧ IsDigit c := by
  refine ⟨(if x < 0 then ['-'] else []) ++ ofNat ((roundHalfEven (|x| * 100)).toNat / 100) ++
    '.' :: [digit ((roundHalfEven (|x| * 100)).toNat / 10)], _, ?_, isDigit_digit (roundHalfEven (|x| * 100)).toNat⟩
  unfold fmt2 twoDigits
  simp only [List.append_assoc, List.cons_append, List.nil_append]

theorem twoDigits_inj {a b : Nat} (h : twoDigits a = twoDigits b) : a % 100 = b % 100 := by
  unfold twoDigits at h
  have h1 := digit_inj (List.cons.inj h).1
  have h2 := digit_inj (List.cons.inj (List.cons.inj h).2).1
  omega

/-- Texts of two decimals are equal only for numbers equal to two decimals. -/
theorem fmt2_inj {x y : ℚ} (h : fmt2 x = fmt2 y) : Spec.to2 x = Spec.to2 y := by
  have dig : ∀ n, '.' ∉ ofNat n := fun n hm => (isDigit_ne (ofNat_digits _ _ hm)).1 rfl
  have key : ∀ a b : Nat, ofNat (a / 100) ++ '.' :: twoDigits a = ofNat (b / 100) ++ '.' :: twoDigits b → a = b := by
    intro a b hab
    obtain ⟨h1, h2⟩ := split_unique (dig _) (dig _) hab
    have h3 := ofNat_inj h1
    have h4 := twoDigits_inj h2
    omega
  have hneg : ∀ (a : Nat) (s t : Str), '-' :: t ≠ ofNat a ++ '.' :: s := by
    intro a s t hc
    have hne := ofNat_ne_nil a
    cases hl : ofNat a with
    | nil => exact hne hl
    | cons c l =>
      rw [hl] at hc
      have : c ∈ ofNat a := by rw [hl]; simp
      exact (isDigit_ne (ofNat_digits _ _ this)).2.1 (List.cons.inj hc).1.symm
  have nn : ∀ z : ℚ, ((roundHalfEven (|z| * 100)).toNat : Int) = roundHalfEven (|z| * 100) := fun z =>
    Int.toNat_of_nonneg (roundHalfEven_nonneg (by positivity))
  unfold fmt2 at h
  dsimp only at h
  unfold Spec.to2
  by_cases hx : x < 0 <;> by_cases hy : y < 0
  · rw [if_pos hx, if_pos hy] at h
    have := key _ _ (List.cons.inj h).2
    have e : roundHalfEven (|x| * 100) = roundHalfEven (|y| * 100) := (nn x).symm.trans ((congrArg Nat.cast this).trans (nn y))
    rw [abs_of_neg hx, abs_of_neg hy, neg_mul, neg_mul, roundHalfEven_neg, roundHalfEven_neg] at e
    omega
  · rw [if_pos hx, if_neg hy] at h
    exact absurd h (hneg _ _ _)
  · rw [if_neg hx, if_pos hy] at h
    exact absurd h.symm (hneg _ _ _)
  · rw [if_neg hx, if_neg hy] at h
    have := key _ _ h
    have e : roundHalfEven (|x| * 100) = roundHalfEven (|y| * 100) := (nn x).symm.trans ((congrArg Nat.cast this).trans (nn y))
    rwa [abs_of_nonneg (not_lt.1 hx), abs_of_nonneg (not_lt.1 hy)] at e

/-- Splitting at the last separator is unique. -/
theorem split_last_unique {a a' b b' : Str} {c : Char} (hb : c ∉ b) (hb' : c ∉ b')
    (h : a ++ c :: b = a' ++ c :: b') : a = a' ∧ b = b' := by
  have h' := congrArg List.reverse h
  simp only [List.reverse_append, List.reverse_cons, List.append_assoc, List.singleton_append] at h'
  have hr : c ∉ b.reverse := by simpa using hb
  have hr' : c ∉ b'.reverse := by simpa using hb'
  obtain ⟨h1, h2⟩ := split_unique hr hr' h'
  exact ⟨List.reverse_injective h2, List.reverse_injective h1⟩

/-- Splitting at the last digit is unique. -/
theorem split_digit_unique {a a' b b' : Str} {c c' : Char} (hc : IsDigit c) (hc' : IsDigit c')
    (hb : ∀ x ∈ b, ¬ IsDigit x) (hb' : ∀ x ∈ b', ¬ IsDigit x)
    (h : a ++ c :: b = a' ++ c' :: b') : a ++ [c] = a' ++ [c'] ∧ b = b' := by
  induction b using List.reverseRecOn generalizing b' with
  | nil =>
    induction b' using List.reverseRecOn with
    | nil => exact ⟨h, rfl⟩
    | append_singleton b' x _ =>
      exfalso
      have h1 : a ++ [c] = (a' ++ c' :: b') ++ [x] := by rw [h]; simp
      have := (List.append_inj' h1 rfl).2
      exact hb' x (by simp) ((List.cons.inj this).1 ▸ hc)
  | append_singleton b x ih =>
    induction b' using List.reverseRecOn with
    | nil =>
      exfalso
      have h1 : (a ++ c :: b) ++ [x] = a' ++ [c'] := by rw [← h]; simp
      have := (List.append_inj' h1 rfl).2
      exact hb x (by simp) ((List.cons.inj this).1 ▸ hc')
    | append_singleton b' y _ =>
      have h1 : (a ++ c :: b) ++ [x] = (a' ++ c' :: b') ++ [y] := by
        simpa only [List.append_assoc, List.cons_append] using h
      obtain ⟨h2, h3⟩ := List.append_inj' h1 rfl
      obtain ⟨h4, h5⟩ := ih (fun z hz => hb z (by simp [hz])) (fun z hz => hb' z (by simp [hz])) h2
      exact ⟨h4, by rw [h5, h3]⟩

end Str

/-- One part of an identifier of a map. -/
theorem no_underscore_int (z : Int) : '_' ∉ Str.ofInt z := fun h =>
  (Str.ofInt_chars z _ h).elim (fun h => (Str.isDigit_ne h).2.2.2.2 rfl) (by decide)

theorem no_underscore_fmt2 (x : ℚ) : '_' ∉ Str.fmt2 x := fun h =>
  (Str.fmt2_chars x _ h).elim (fun h => (Str.isDigit_ne h).2.2.2.2 rfl) (by rintro (h | h) <;> revert h <;> decide)

/-- The identifier of a map can be cut off at the end of a text. -/
theorem identifier_split {p q : Str} {a b : MapGeo} (h : p ++ '_' :: a.identifier = q ++ '_' :: b.identifier) :
    p = q ∧ Spec.MapsAgree a b := by
  have assoc : ∀ (p : Str) (a : MapGeo), p ++ '_' :: a.identifier =
      (((((p ++ '_' :: Str.ofInt (Str.truncInt a.origX)) ++ '_' :: Str.ofInt (Str.truncInt a.origY)) ++
        '_' :: Str.ofInt (Str.truncInt a.pxlW)) ++ '_' :: Str.ofInt (Str.truncInt a.pxlH)) ++
        '_' :: Str.fmt2 a.min) ++ '_' :: Str.fmt2 a.max := by
    intro p a
    unfold MapGeo.identifier
    simp only [List.append_assoc, List.cons_append]
  rw [assoc, assoc] at h
  obtain ⟨h, e6⟩ := Str.split_last_unique (no_underscore_fmt2 _) (no_underscore_fmt2 _) h
  obtain ⟨h, e5⟩ := Str.split_last_unique (no_underscore_fmt2 _) (no_underscore_fmt2 _) h
  obtain ⟨h, e4⟩ := Str.split_last_unique (no_underscore_int _) (no_underscore_int _) h
  obtain ⟨h, e3⟩ := Str.split_last_unique (no_underscore_int _) (no_underscore_int _) h
  obtain ⟨h, e2⟩ := Str.split_last_unique (no_underscore_int _) (no_underscore_int _) h
  obtain ⟨h, e1⟩ := Str.split_last_unique (no_underscore_int _) (no_underscore_int _) h
  exact ⟨h, Str.ofInt_inj e1, Str.ofInt_inj e2, Str.ofInt_inj e3, Str.ofInt_inj e4, Str.fmt2_inj e5, Str.fmt2_inj e6⟩

theorem suffix_facts {mode s : Str} (h : tableSuffix mode = some s) :
    (∀ c ∈ s, ¬ Str.IsDigit c) ∧ ∀ mode', tableSuffix mode' = some s → mode' = mode := by
  unfold tableSuffix at h
  have hm := Dict.mem_of_get? h
  constructor
  · have : ∀ q ∈ ([("grib_nearest", "grib_nearest"), ("grib_invdist", "grib_invdist"), ("nearest", "scipy_nearest"),
      ("invdist", "scipy_invdist"), ("adw", "scipy_adw"), ("cdd", "scipy_cdd"), ("bilinear", "scipy_bilinear"),
      ("triangulation", "scipy_triangulation"), ("bilinear_delaunay", "scipy_bilinear_delaunay")].map
        fun p => (p.1.toList, p.2.toList)), ∀ c ∈ q.2, 58 ≤ c.toNat := by decide +kernel
    rintro c hc ⟨d, hd, rfl⟩
    have := this _ hm _ hc
    have : (Char.ofNat (48 + d)).toNat = 48 + d := by
      have : d = 0 ∨ d = 1 ∨ d = 2 ∨ d = 3 ∨ d = 4 ∨ d = 5 ∨ d = 6 ∨ d = 7 ∨ d = 8 ∨ d = 9 := by omega
      rcases this with rfl | rfl | rfl | rfl | rfl | rfl | rfl | rfl | rfl | rfl <;> rfl
    omega
  · intro mode' h'
    unfold tableSuffix at h'
    have hm' := Dict.mem_of_get? h'
    have : ∀ q ∈ ([("grib_nearest", "grib_nearest"), ("grib_invdist", "grib_invdist"), ("nearest", "scipy_nearest"),
      ("invdist", "scipy_invdist"), ("adw", "scipy_adw"), ("cdd", "scipy_cdd"), ("bilinear", "scipy_bilinear"),
      ("triangulation", "scipy_triangulation"), ("bilinear_delaunay", "scipy_bilinear_delaunay")].map
        fun p => (p.1.toList, p.2.toList)), ∀ q' ∈ ([("grib_nearest", "grib_nearest"), ("grib_invdist", "grib_invdist"), ("nearest", "scipy_nearest"),
      ("invdist", "scipy_invdist"), ("adw", "scipy_adw"), ("cdd", "scipy_cdd"), ("bilinear", "scipy_bilinear"),
      ("triangulation", "scipy_triangulation"), ("bilinear_delaunay", "scipy_bilinear_delaunay")].map
        fun p => (p.1.toList, p.2.toList)), q.2 = q'.2 → q.1 = q'.1 := by decide +kernel
    exact this _ hm' _ hm rfl

theorem targetId_last (lat lon : MapGeo) : ∃ s c, targetId lat lon = s ++ [c] ∧ Str.IsDigit c := by
  obtain ⟨s, c, h, hc⟩ := Str.fmt2_last lon.max
  refine ⟨lat.identifier ++ '_' :: (Str.ofInt (Str.truncInt lon.origX) ++ '_' :: (Str.ofInt (Str.truncInt lon.origY) ++ '_' ::
    (Str.ofInt (Str.truncInt lon.pxlW) ++ '_' :: (Str.ofInt (Str.truncInt lon.pxlH) ++ '_' ::
    (Str.fmt2 lon.min ++ '_' :: s))))), c, ?_, hc⟩
  unfold targetId
  conv_lhs => rw [show lon.identifier = _ from rfl]
  unfold MapGeo.identifier
  rw [h]
  simp only [List.append_assoc, List.cons_append]

/-- The five first parts of a grid identifier have neither `$` nor `_`; replacing `$` by `_` loses nothing
when the grid type has no `$`. -/
theorem buildId_replace_inj {g g' : GeoKeys} (hg : '$' ∉ g.gridType) (hg' : '$' ∉ g'.gridType)
    (h : g.buildId.map (fun c => if c = '$' then '_' else c) = g'.buildId.map fun c => if c = '$' then '_' else c) :
    g.buildId = g'.buildId := by
  have hid : ∀ g : GeoKeys, g.buildId = GeoKeys.longText g.longFirst ++ '$' :: (lastText g.longLast ++ '$' ::
      (GeoKeys.intText g.ni ++ '$' :: (GeoKeys.intText g.nj ++ '$' ::
      (Str.ofInt g.numberOfValues ++ '$' :: g.gridType)))) := by
    intro g; unfold GeoKeys.buildId lastText; cases g.longLast <;> rfl
  have keep : ∀ s : Str, '$' ∉ s → s.map (fun c => if c = '$' then '_' else c) = s := by
    intro s hs
    conv_rhs => rw [← List.map_id s]
    refine List.map_congr_left fun c hc => ?_
    rw [if_neg (by rintro rfl; exact hs hc)]
    rfl
  have hnv : ∀ z, '$' ∉ Str.ofInt z := fun z h => (Str.ofInt_chars z _ h).elim not_digit_dollar (by decide)
  have u1 : ∀ x, '_' ∉ GeoKeys.longText x := by
    intro x hx
    have h1 := Str.rstrip_mem (Str.rstrip_mem hx)
    unfold Str.fmt4 at h1
    dsimp only at h1
    rcases List.mem_append.1 h1 with h1 | h1
    · rcases List.mem_append.1 h1 with h1 | h1
      · split_ifs at h1
        · exact absurd (List.mem_singleton.1 h1) (by decide)
        · cases h1
      · exact (Str.isDigit_ne (Str.ofNat_digits _ _ h1)).2.2.2.2 rfl
    · rcases List.mem_cons.1 h1 with h1 | h1
      · exact absurd h1 (by decide)
      · unfold Str.fourDigits at h1
        simp only [List.mem_cons, List.not_mem_nil, or_false] at h1
        rcases h1 with h1 | h1 | h1 | h1 <;>
          exact (Str.isDigit_ne (h1 ▸ Str.isDigit_digit _ : Str.IsDigit '_')).2.2.2.2 rfl
  have u2 : ∀ z, '_' ∉ GeoKeys.intText z := by
    intro z hz
    cases z with
    | none => exact absurd (List.mem_singleton.1 hz) (by decide)
    | some z => exact no_underscore_int z hz
  have u3 : ∀ x, '_' ∉ lastText x := by
    intro x hx
    cases x with
    | none => exact absurd (List.mem_singleton.1 hx) (by decide)
    | some x => exact u1 x hx
  have e : ∀ g : GeoKeys, '$' ∉ g.gridType → g.buildId.map (fun c => if c = '$' then '_' else c) =
      GeoKeys.longText g.longFirst ++ '_' :: (lastText g.longLast ++ '_' ::
      (GeoKeys.intText g.ni ++ '_' :: (GeoKeys.intText g.nj ++ '_' ::
      (Str.ofInt g.numberOfValues ++ '_' :: g.gridType)))) := by
    intro g hg
    rw [hid]
    simp only [List.map_append, List.map_cons, if_pos]
    rw [keep _ (longText_no _).1, keep _ (lastText_no _), keep _ (intText_no _), keep _ (intText_no _), keep _ (hnv _),
      keep _ hg]
  rw [e g hg, e g' hg'] at h
  obtain ⟨a1, h⟩ := Str.split_unique (u1 _) (u1 _) h
  obtain ⟨a2, h⟩ := Str.split_unique (u3 _) (u3 _) h
  obtain ⟨a3, h⟩ := Str.split_unique (u2 _) (u2 _) h
  obtain ⟨a4, h⟩ := Str.split_unique (u2 _) (u2 _) h
  obtain ⟨a5, h⟩ := Str.split_unique (no_underscore_int _) (no_underscore_int _) h
  rw [hid, hid, a1, a2, a3, a4, a5, h]

/-- **C58** (identifiers; the part that holds). Two tables have the same identifier only if the interpolation modes
are the same, the identifiers of the source grids are the same (`C23_grid_id_partial` says what these tell apart),
and the latitude and the longitude map of the targets agree in the integer parts of origin and pixel size and in
the range of values to two decimals. What is missing: the fractions (`table_id_pixel_size`) and the latitudes of
the source grid (`table_id_latitudes`). -/
theorem table_id_partial (g g' : GeoKeys) (hg : '$' ∉ g.gridType) (hg' : '$' ∉ g'.gridType)
    (lat lon lat' lon' : MapGeo) (mode mode' s s' : Str) (hs : tableSuffix mode = some s)
    (hs' : tableSuffix mode' = some s')
    (h : tableId g.buildId (targetId lat lon) s = tableId g'.buildId (targetId lat' lon') s') :
    mode = mode' ∧ g.buildId = g'.buildId ∧ Spec.MapsAgree lat lat' ∧ Spec.MapsAgree lon lon' := by
  obtain ⟨d, k⟩ := suffix_facts hs
  obtain ⟨d', k'⟩ := suffix_facts hs'
  obtain ⟨a, c, hc, hcd⟩ := targetId_last lat lon
  obtain ⟨a', c', hc', hcd'⟩ := targetId_last lat' lon'
  unfold tableId at h
  have h := (List.cons.inj h).2
  have assoc : ∀ (p a s : Str) (c : Char), p ++ '_' :: ((a ++ [c]) ++ s) = (p ++ '_' :: a) ++ c :: s := by
    intro p a s c
    simp only [List.append_assoc, List.cons_append, List.nil_append]
  rw [hc, hc', assoc, assoc] at h
  obtain ⟨h, e⟩ := Str.split_digit_unique hcd hcd' d d' h
  have assoc2 : ∀ (p a : Str) (c : Char), (p ++ '_' :: a) ++ [c] = p ++ '_' :: (a ++ [c]) := by
    intro p a c
    simp only [List.append_assoc, List.cons_append]
  rw [assoc2, assoc2, ← hc, ← hc'] at h
  have assoc3 : ∀ (p : Str) (x y : MapGeo), p ++ '_' :: targetId x y = (p ++ '_' :: x.identifier) ++ '_' :: y.identifier := by
    intro p x y
    unfold targetId
    simp only [List.append_assoc, List.cons_append]
  rw [assoc3, assoc3] at h
  obtain ⟨h, e1⟩ := identifier_split h
  obtain ⟨h, e2⟩ := identifier_split h
  refine ⟨?_, buildId_replace_inj hg hg' h, e2, e1⟩
  subst e
  exact k' mode hs

namespace Demo

/-- A latitude map with 5 km pixels. -/
def latMap : MapGeo := ⟨4000000, 3100000, 5000, 5000, 3445/100, 7012/100⟩

/-- A longitude map. -/
def lonMap : MapGeo := ⟨4000000, 3100000, 5000, 5000, -105/10, 401/10⟩

/-- Keys of a global grid. -/
def keys1 : GeoKeys := ⟨0, some (3596250/10000), some 960, some 480, 460800, "regular_ll".toList⟩

end Demo

/-- Non-vacuity: an identifier, and another mode with another identifier. -/
example : tableId Demo.keys1.buildId (targetId Demo.latMap Demo.lonMap) "scipy_nearest".toList =
      ("I0_359.625_960_480_460800_regular_ll_4000000_3100000_5000_5000_34.45_70.12_" ++
        "4000000_3100000_5000_5000_-10.50_40.10scipy_nearest").toList ∧
    tableSuffix "nearest".toList = some "scipy_nearest".toList ∧ '$' ∉ Demo.keys1.gridType ∧
    tableId Demo.keys1.buildId (targetId Demo.latMap Demo.lonMap) "scipy_invdist".toList ≠
      tableId Demo.keys1.buildId (targetId Demo.latMap Demo.lonMap) "scipy_nearest".toList := by
  refine ⟨by decide +kernel, by decide +kernel, by decide +kernel, by decide +kernel⟩

/-- C58 is false of the program: in a geographic projection, target grids of 0.1 and of 0.05 degrees with the same
range of coordinates have the same identifier (the pixel size is truncated to 0). -/
theorem table_id_pixel_size : ∃ a b : MapGeo, a.pxlW = 1/10 ∧ b.pxlW = 1/20 ∧ a.origX = b.origX ∧
    a.origY = b.origY ∧ a.min = b.min ∧ a.max = b.max ∧
    ∀ grid suffix, tableId grid (targetId a a) suffix = tableId grid (targetId b b) suffix := by
  refine ⟨⟨-10, 70, 1/10, 1/10, 35, 70⟩, ⟨-10, 70, 1/20, 1/20, 35, 70⟩, rfl, rfl, rfl, rfl, rfl, rfl, ?_⟩
  intro grid suffix
  rw [show targetId ⟨-10, 70, 1/10, 1/10, 35, 70⟩ ⟨-10, 70, 1/10, 1/10, 35, 70⟩ =
    targetId ⟨-10, 70, 1/20, 1/20, 35, 70⟩ ⟨-10, 70, 1/20, 1/20, 35, 70⟩ by decide +kernel]

/-- A source grid with its latitudes (`latitudeOfFirstGridPointInDegrees`, `latitudeOfLastGridPointInDegrees`), which
are not among the keys of the identifier (src/pyg2p/__init__.py 69-96). -/
structure Spec.SourceGrid where
  keys : GeoKeys
  latFirst : ℚ
  latLast : ℚ

/-- C58 is false of the program: a northern and a southern regular grid of the same longitudes and sizes share their
tables. -/
theorem table_id_latitudes : ∃ a b : Spec.SourceGrid, a.latFirst = 90 ∧ a.latLast = 0 ∧ b.latFirst = 0 ∧
    b.latLast = -90 ∧ a.keys.gridType = "regular_ll".toList ∧
    ∀ target suffix, tableId a.keys.buildId target suffix = tableId b.keys.buildId target suffix :=
  ⟨⟨Demo.keys1, 90, 0⟩, ⟨Demo.keys1, 0, -90⟩, rfl, rfl, rfl, rfl, rfl, fun _ _ => rfl⟩

/-- **C58.** The text of a table id: the letter I, the parts of the grid id, the target id, joined by underscores, and
the suffix of the method. -/
theorem table_id_form (first : Str) (parts : List Str) (target suffix : Str) (h : ∀ p ∈ first :: parts, '$' ∉ p) :
    tableId (first ++ (parts.map fun p => '$' :: p).flatten) target suffix =
      "I".toList ++ first ++ (parts.map fun p => "_".toList ++ p).flatten ++ "_".toList ++ target ++ suffix := by
  have keep : ∀ p ∈ first :: parts, (p.map fun c => if c = '$' then '_' else c) = p := by
    intro p hp
    conv_rhs => rw [← List.map_id p]
    apply List.map_congr_left
    intro c hc
    rw [if_neg (fun e : c = (Char.ofNat 36) => h p hp (e ▸ hc))]
    rfl
  have hparts : (parts.map fun p => '$' :: p).flatten.map (fun c => if c = '$' then '_' else c) =
      (parts.map fun p => "_".toList ++ p).flatten := by
    have : ∀ l : List Str, (∀ p ∈ l, (p.map fun c => if c = '$' then '_' else c) = p) →
        (l.map fun p => '$' :: p).flatten.map (fun c => if c = '$' then '_' else c) =
          (l.map fun p => "_".toList ++ p).flatten := by
      intro l
      induction l with
      | nil => intro _; rfl
      | cons a l ih =>
        intro hl
        rw [List.map_cons, List.map_cons, List.flatten_cons, List.flatten_cons, List.map_append, List.map_cons,
          hl a List.mem_cons_self, ih fun p hp => hl p (List.mem_cons_of_mem _ hp), if_pos rfl]
        rfl
    exact this parts fun p hp => keep p (List.mem_cons_of_mem _ hp)
  unfold tableId
  rw [List.map_append, keep first List.mem_cons_self, hparts]
  have e1 : "I".toList = ['I'] := rfl
  have e2 : "_".toList = ['_'] := rfl
  simp only [e1, e2, List.append_assoc, List.cons_append, List.nil_append]

example : tableId "regular_ll$0$359".toList "_a".toList "_near".toList = "Iregular_ll_0_359__a_near".toList := by
  decide +kernel

end PyG2P
