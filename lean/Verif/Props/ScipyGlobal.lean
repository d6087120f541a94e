import Verif.Props.BilinearChecks
import Mathlib.Data.Rat.Floor

/-! # C128: the source grid of the triangulation at the date line -/

namespace PyG2P
open ScipyLib

namespace Spec

/-- A longitude as a number from -180 to 180. -/
def east (x : ℚ) : ℚ := if x ≤ 180 then x else x - 360

/-- Distance in longitude of the first two points, both counted from -180 to 180. -/
def firstStep (a b : Pt) : ℚ := |east a.lon - east b.lon|

/-- `x` is the easternmost longitude of the points. -/
def Eastmost (pts : List Pt) (x : ℚ) : Prop := (∃ p ∈ pts, east p.lon = x) ∧ ∀ p ∈ pts, east p.lon ≤ x
/-- `x` is the westernmost longitude of the points. -/
def Westmost (pts : List Pt) (x : ℚ) : Prop := (∃ p ∈ pts, east p.lon = x) ∧ ∀ p ∈ pts, x ≤ east p.lon

end Spec

theorem normLon_east (x : ℚ) : normLon x = Spec.east x := by
  unfold normLon Spec.east
  by_cases h : 180 < x
  · rw [if_pos h, if_neg (not_le.2 h)]
  · rw [if_neg h, if_pos (not_lt.1 h)]

/-- The points with normalised longitudes. -/
def ScipyLib.normPts (pts : List Pt) : List Pt := pts.map fun p => ⟨p.lat, normLon p.lon⟩

theorem triSource_two (a b : Pt) (l : List Pt) :
    triSource (a :: b :: l) =
      if isGlobal ((normPts (a :: b :: l)).map (·.lon)) then .ok (true, padded (normPts (a :: b :: l)))
      else .ok (false, normPts (a :: b :: l)) := rfl

theorem lonRes_first (a b : Pt) (l : List Pt) :
    lonRes ((normPts (a :: b :: l)).map (·.lon)) = 3 / 2 * Spec.firstStep a b := by
  unfold lonRes normPts Spec.firstStep
  simp only [List.map_cons, List.getElem?_cons_zero, List.getElem?_cons_succ, Option.getD_some, normLon_east]
  ring

theorem normPts_lons (pts : List Pt) : (normPts pts).map (·.lon) = pts.map fun p => Spec.east p.lon := by
  unfold normPts
  rw [List.map_map]
  apply List.map_congr_left
  intro p _
  exact normLon_east _

theorem lmax_eastmost {pts : List Pt} {x : ℚ} (h : Spec.Eastmost pts x) : lmax ((normPts pts).map (·.lon)) = x := by
  rw [normPts_lons]
  obtain ⟨⟨p, hp, rfl⟩, h2⟩ := h
  obtain ⟨k1, k2⟩ := lmax_spec (l := pts.map fun p => Spec.east p.lon) (by
    intro e
    rw [List.map_eq_nil_iff] at e
    subst e
    cases hp)
  apply le_antisymm
  · obtain ⟨q, hq, he⟩ := List.mem_map.1 k1
    rw [← he]
    exact h2 q hq
  · exact k2 _ (List.mem_map_of_mem (f := fun p : Pt => Spec.east p.lon) hp)

theorem lmin_westmost {pts : List Pt} {x : ℚ} (h : Spec.Westmost pts x) : lmin ((normPts pts).map (·.lon)) = x := by
  rw [normPts_lons]
  obtain ⟨⟨p, hp, rfl⟩, h2⟩ := h
  obtain ⟨k1, k2⟩ := lmin_spec (l := pts.map fun p => Spec.east p.lon) (by
    intro e
    rw [List.map_eq_nil_iff] at e
    subst e
    cases hp)
  apply le_antisymm
  · exact k2 _ (List.mem_map_of_mem (f := fun p : Pt => Spec.east p.lon) hp)
  · obtain ⟨q, hq, he⟩ := List.mem_map.1 k1
    rw [← he]
    exact h2 q hq

theorem exists_eastmost {pts : List Pt} (h : pts ≠ []) : ∃ x, Spec.Eastmost pts x := by
  obtain ⟨k1, k2⟩ := lmax_spec (l := pts.map fun p => Spec.east p.lon) (by rwa [ne_eq, List.map_eq_nil_iff])
  refine ⟨_, ?_, fun p hp => k2 _ (List.mem_map_of_mem (f := fun p : Pt => Spec.east p.lon) hp)⟩
  obtain ⟨q, hq, he⟩ := List.mem_map.1 k1
  exact ⟨q, hq, he⟩

theorem exists_westmost {pts : List Pt} (h : pts ≠ []) : ∃ x, Spec.Westmost pts x := by
  obtain ⟨k1, k2⟩ := lmin_spec (l := pts.map fun p => Spec.east p.lon) (by rwa [ne_eq, List.map_eq_nil_iff])
  refine ⟨_, ?_, fun p hp => k2 _ (List.mem_map_of_mem (f := fun p : Pt => Spec.east p.lon) hp)⟩
  obtain ⟨q, hq, he⟩ := List.mem_map.1 k1
  exact ⟨q, hq, he⟩

theorem isGlobal_iff (a b : Pt) (l : List Pt) :
    isGlobal ((normPts (a :: b :: l)).map (·.lon)) = true ↔ ∃ p ∈ a :: b :: l, ∃ q ∈ a :: b :: l,
      360 - (Spec.east p.lon - Spec.east q.lon) < 3 / 2 * Spec.firstStep a b := by
  obtain ⟨M, hM⟩ := exists_eastmost (pts := a :: b :: l) (List.cons_ne_nil _ _)
  obtain ⟨m, hm⟩ := exists_westmost (pts := a :: b :: l) (List.cons_ne_nil _ _)
  unfold isGlobal
  rw [lmax_eastmost hM, lmin_westmost hm, lonRes_first, decide_eq_true_eq]
  constructor
  · intro h
    obtain ⟨p, hp, e1⟩ := hM.1
    obtain ⟨q, hq, e2⟩ := hm.1
    exact ⟨p, hp, q, hq, by rw [e1, e2]; exact h⟩
  · rintro ⟨p, hp, q, hq, h⟩
    have := hM.2 p hp
    have := hm.2 q hq
    linarith

/-- **C128.** The source grid is taken as global exactly when two of its points leave, across the date line, a gap
smaller than one and a half times the distance of the first two points (all longitudes from -180 to 180). A grid that is
not global is triangulated as it is, longitudes from -180 to 180. -/
theorem global_iff (a b : Pt) (l : List Pt) :
    ∃ g ext, triSource (a :: b :: l) = .ok (g, ext) ∧
      (g = true ↔ ∃ p ∈ a :: b :: l, ∃ q ∈ a :: b :: l,
        360 - (Spec.east p.lon - Spec.east q.lon) < 3 / 2 * Spec.firstStep a b) ∧
      (g = false → ext = (a :: b :: l).map fun p => ⟨p.lat, Spec.east p.lon⟩) := by
  rw [triSource_two, ← isGlobal_iff]
  by_cases h : isGlobal ((normPts (a :: b :: l)).map (·.lon)) = true
  · rw [if_pos h]
    exact ⟨true, _, rfl, by rw [h], fun e => (by cases e)⟩
  · rw [if_neg h]
    refine ⟨false, _, rfl, ?_, fun _ => ?_⟩
    · rw [Bool.not_eq_true] at h; rw [h]
    · unfold normPts
      apply List.map_congr_left
      intro p _
      rw [normLon_east]

/-- **C128.** The points a global grid is triangulated with: the source points, those within three times the distance
of the first two points from the easternmost longitude again a full turn to the west, and those as near to the
westernmost longitude a full turn to the east. -/
theorem global_copies (a b : Pt) (l : List Pt) (ext : List Pt) (M m : ℚ) (h : triSource (a :: b :: l) = .ok (true, ext))
    (hM : Spec.Eastmost (a :: b :: l) M) (hm : Spec.Westmost (a :: b :: l) m) (q : Pt) :
    q ∈ ext ↔ ∃ p ∈ a :: b :: l, q.lat = p.lat ∧ (q.lon = Spec.east p.lon ∨
      (q.lon = Spec.east p.lon - 360 ∧ M - Spec.east p.lon < 3 * Spec.firstStep a b) ∨
      (q.lon = Spec.east p.lon + 360 ∧ Spec.east p.lon - m < 3 * Spec.firstStep a b)) := by
  rw [triSource_two] at h
  by_cases hg : isGlobal ((normPts (a :: b :: l)).map (·.lon)) = true
  · rw [if_pos hg] at h
    cases h
    unfold padded
    dsimp only
    rw [lmax_eastmost hM, lmin_westmost hm, lonRes_first]
    rw [List.mem_append, List.mem_append]
    unfold normPts
    simp only [List.mem_map, List.mem_filter, decide_eq_true_eq]
    have eta : ∀ (x y : ℚ), (⟨x, y⟩ : Pt) = q ↔ q.lat = x ∧ q.lon = y := by
      intro x y
      constructor
      · rintro rfl; exact ⟨rfl, rfl⟩
      · rintro ⟨rfl, rfl⟩; rfl
    constructor
    · rintro ((⟨p, hp, e⟩ | ⟨_, ⟨⟨p, hp, rfl⟩, hc⟩, e⟩) | ⟨_, ⟨⟨p, hp, rfl⟩, hc⟩, e⟩)
      · rw [eta, normLon_east] at e
        exact ⟨p, hp, e.1, .inl e.2⟩
      · rw [eta, normLon_east] at e
        rw [normLon_east] at hc
        exact ⟨p, hp, e.1, .inr (.inl ⟨e.2, by linarith⟩)⟩
      · rw [eta, normLon_east] at e
        rw [normLon_east] at hc
        exact ⟨p, hp, e.1, .inr (.inr ⟨e.2, by linarith⟩)⟩
    · rintro ⟨p, hp, e1, e2 | ⟨e2, hc⟩ | ⟨e2, hc⟩⟩
      · exact .inl (.inl ⟨p, hp, by rw [eta, normLon_east]; exact ⟨e1, e2⟩⟩)
      · refine .inl (.inr ⟨_, ⟨⟨p, hp, rfl⟩, ?_⟩, ?_⟩)
        · rw [normLon_east]; linarith
        · rw [eta, normLon_east]; exact ⟨e1, e2⟩
      · refine .inr ⟨_, ⟨⟨p, hp, rfl⟩, ?_⟩, ?_⟩
        · rw [normLon_east]; linarith
        · rw [eta, normLon_east]; exact ⟨e1, e2⟩
  · rw [if_neg hg] at h
    cases h

/-- The longitude of column `k` of a regular grid of `n` columns, from -180 to 180, is a multiple of the spacing. -/
theorem east_column {n : Nat} {d : ℚ} (hd : 0 < d) (hn : n * d = 360) (k : Nat) :
    Spec.east (k * d) = if k ≤ n / 2 then (k : ℚ) * d else ((k : ℚ) - n) * d := by
  unfold Spec.east
  have h2 : ∀ j : Nat, (j : ℚ) * d ≤ 180 ↔ j ≤ n / 2 := by
    intro j
    have e : (180 : ℚ) = n * d / 2 := by rw [hn]; norm_num
    rw [Nat.le_div_iff_mul_le (by norm_num), e]
    constructor
    · intro h
      have : (j : ℚ) * 2 ≤ n := by
        by_contra hc
        have := mul_lt_mul_of_pos_right (not_le.1 hc) hd
        linarith
      exact_mod_cast this
    · intro h
      have : (j : ℚ) * 2 ≤ n := by exact_mod_cast h
      have := mul_le_mul_of_nonneg_right this hd.le
      linarith
  by_cases h : k ≤ n / 2
  · rw [if_pos ((h2 k).2 h), if_pos h]
  · rw [if_neg (fun hh => h ((h2 k).1 hh)), if_neg h, sub_mul, hn]

/-- **C128.** A source grid whose rows have `n` points each, `360 / n` degrees apart from longitude 0, is taken as
global, and the triangulation leaves no hole at the date line: every longitude from -180 to 180 lies between two points
of the row that are one spacing apart. -/
theorem regular_global (n : Nat) (d : ℚ) (a b : Pt) (l : List Pt) (h2 : 2 ≤ n) (hn : n * d = 360)
    (ha : a.lon = 0) (hb : b.lon = d) (hc : ∀ p ∈ a :: b :: l, ∃ k : Nat, k < n ∧ p.lon = k * d)
    (hall : ∀ k : Nat, k < n → ∃ p ∈ a :: b :: l, p.lon = k * d) :
    ∃ ext, triSource (a :: b :: l) = .ok (true, ext) ∧
      ∀ y x : ℚ, (∀ k : Nat, k < n → (⟨y, k * d⟩ : Pt) ∈ a :: b :: l) → -180 ≤ x → x ≤ 180 →
        ∃ u, (⟨y, u⟩ : Pt) ∈ ext ∧ (⟨y, u + d⟩ : Pt) ∈ ext ∧ u ≤ x ∧ x ≤ u + d := by
  have hn0 : (0 : ℚ) < n := by exact_mod_cast (by omega : 0 < n)
  have hd : 0 < d := by
    by_contra hcon
    have := mul_nonpos_of_nonneg_of_nonpos hn0.le (not_lt.1 hcon)
    linarith
  have hE := east_column hd hn
  have hstep : Spec.firstStep a b = d := by
    unfold Spec.firstStep
    have e0 := hE 0
    have e1 := hE 1
    rw [if_pos (by omega)] at e0 e1
    rw [ha, hb]
    simp only [Nat.cast_zero, zero_mul, Nat.cast_one, one_mul] at e0 e1
    rw [e0, e1, zero_sub, abs_neg, abs_of_pos hd]
  obtain ⟨c, hcdef, hc2⟩ : ∃ c : Nat, c = n / 2 ∧ 2 * c ≤ n ∧ n ≤ 2 * c + 1 := ⟨n / 2, rfl, by omega, by omega⟩
  rw [← hcdef] at hE
  clear hcdef
  -- the columns as multiples j * d, j from n/2 + 1 - n to n/2
  have hcol : ∀ j : Int, c + 1 - (n : Int) ≤ j → j ≤ c →
      ∃ k : Nat, k < n ∧ Spec.east (k * d) = j * d := by
    intro j hj1 hj2
    by_cases hj : 0 ≤ j
    · obtain ⟨k, rfl⟩ := Int.eq_ofNat_of_zero_le hj
      refine ⟨k, by omega, ?_⟩
      rw [hE, if_pos (by omega)]
      push_cast
      rfl
    · obtain ⟨k, hk⟩ := Int.eq_ofNat_of_zero_le (a := j + n) (by omega)
      refine ⟨k, by omega, ?_⟩
      rw [hE, if_neg (by omega)]
      have : (j : ℚ) + n = k := by exact_mod_cast hk
      rw [← this]
      ring
  have hrev : ∀ p ∈ a :: b :: l, ∃ j : Int, c + 1 - (n : Int) ≤ j ∧ j ≤ c ∧
      Spec.east p.lon = j * d := by
    intro p hp
    obtain ⟨k, hk, e⟩ := hc p hp
    rw [e, hE]
    by_cases h : k ≤ c
    · exact ⟨k, by omega, by omega, by rw [if_pos h]; push_cast; rfl⟩
    · exact ⟨(k : Int) - n, by omega, by omega, by rw [if_neg h]; push_cast; rfl⟩
  have hM : Spec.Eastmost (a :: b :: l) (c * d) := by
    constructor
    · obtain ⟨k, hk, e⟩ := hcol c (by omega) (by omega)
      obtain ⟨p, hp, ep⟩ := hall k hk
      refine ⟨p, hp, ?_⟩
      rw [ep, e]
      push_cast
      rfl
    · intro p hp
      obtain ⟨j, -, hj, e⟩ := hrev p hp
      rw [e]
      have : (j : ℚ) ≤ (c : ℚ) := by exact_mod_cast hj
      exact mul_le_mul_of_nonneg_right this hd.le
  have hm : Spec.Westmost (a :: b :: l) ((c + 1 - (n : ℚ)) * d) := by
    constructor
    · obtain ⟨k, hk, e⟩ := hcol (c + 1 - (n : Int)) (le_refl _) (by omega)
      obtain ⟨p, hp, ep⟩ := hall k hk
      refine ⟨p, hp, ?_⟩
      rw [ep, e]
      push_cast
      rfl
    · intro p hp
      obtain ⟨j, hj, -, e⟩ := hrev p hp
      rw [e]
      have : (c + 1 - (n : ℚ)) ≤ (j : ℚ) := by exact_mod_cast hj
      exact mul_le_mul_of_nonneg_right this hd.le
  have hglob : isGlobal ((normPts (a :: b :: l)).map (·.lon)) = true := by
    unfold isGlobal
    rw [lmax_eastmost hM, lmin_westmost hm, lonRes_first, hstep, decide_eq_true_eq]
    have : (c * d - (c + 1 - (n : ℚ)) * d) = 360 - d := by
      rw [← hn]; ring
    rw [this]
    linarith
  have hsrc : triSource (a :: b :: l) = .ok (true, padded (normPts (a :: b :: l))) := by
    rw [triSource_two, if_pos hglob]
  refine ⟨_, hsrc, ?_⟩
  intro y x hrow hx1 hx2
  have mem : ∀ j : Int, c - (n : Int) ≤ j → j ≤ c + 1 →
      (⟨y, j * d⟩ : Pt) ∈ padded (normPts (a :: b :: l)) := by
    intro j hj1 hj2
    rw [global_copies a b l _ _ _ hsrc hM hm, hstep]
    by_cases hlo : j = c - (n : Int)
    · obtain ⟨k, hk, e⟩ := hcol c (by omega) (by omega)
      refine ⟨⟨y, k * d⟩, hrow k hk, rfl, .inr (.inl ⟨?_, ?_⟩)⟩
      · dsimp only
        rw [e, hlo, ← hn]
        push_cast
        ring
      · dsimp only
        rw [e]
        push_cast
        linarith
    · by_cases hhi : j = c + 1
      · obtain ⟨k, hk, e⟩ := hcol (c + 1 - (n : Int)) (le_refl _) (by omega)
        refine ⟨⟨y, k * d⟩, hrow k hk, rfl, .inr (.inr ⟨?_, ?_⟩)⟩
        · dsimp only
          rw [e, hhi, ← hn]
          push_cast
          ring
        · dsimp only
          rw [e]
          push_cast
          linarith
      · obtain ⟨k, hk, e⟩ := hcol j (by omega) (by omega)
        exact ⟨⟨y, k * d⟩, hrow k hk, rfl, .inl e.symm⟩
  have hdx : ∀ z : ℚ, z / d * d = z := fun z => div_mul_cancel₀ z hd.ne'
  have hf1 : (⌊x / d⌋ : ℚ) * d ≤ x := by
    have := mul_le_mul_of_nonneg_right (Int.floor_le (x / d)) hd.le
    rwa [hdx] at this
  have hf2 : x ≤ (⌊x / d⌋ : ℚ) * d + d := by
    have := mul_le_mul_of_nonneg_right (Int.lt_floor_add_one (x / d)).le hd.le
    rw [hdx] at this
    linarith
  have hlow : c - (n : Int) ≤ ⌊x / d⌋ := by
    rw [Int.le_floor, le_div_iff₀ hd]
    push_cast
    have h : 2 * (c : ℚ) ≤ n := by exact_mod_cast hc2.1
    have := mul_le_mul_of_nonneg_right h hd.le
    linarith
  have hhigh : ⌊x / d⌋ ≤ c := by
    have : ⌊x / d⌋ < c + 1 := by
      rw [Int.floor_lt, div_lt_iff₀ hd]
      push_cast
      have h : n < 2 * c + 2 := by omega
      have : (n : ℚ) < 2 * c + 2 := by exact_mod_cast h
      have := mul_lt_mul_of_pos_right this hd
      linarith
    omega
  refine ⟨(⌊x / d⌋ : ℚ) * d, mem _ hlow (by omega), ?_, hf1, hf2⟩
  have := mem (⌊x / d⌋ + 1) (by omega) (by omega)
  push_cast at this
  rw [add_mul, one_mul] at this
  exact this

/-- **C128.** A regional grid is not taken as global: all longitudes, from -180 to 180, in an interval that is shorter
than the full circle by one and a half times the distance of the first two points. -/
theorem regional_not_global (a b : Pt) (l : List Pt) (lo hi : ℚ)
    (h : ∀ p ∈ a :: b :: l, lo ≤ Spec.east p.lon ∧ Spec.east p.lon ≤ hi)
    (hw : hi - lo ≤ 360 - 3 / 2 * Spec.firstStep a b) :
    triSource (a :: b :: l) = .ok (false, (a :: b :: l).map fun p => ⟨p.lat, Spec.east p.lon⟩) := by
  obtain ⟨g, ext, e, hg, hx⟩ := global_iff a b l
  have : g = false := by
    cases g
    · rfl
    · obtain ⟨p, hp, q, hq, hpq⟩ := hg.1 rfl
      have h1 := h p hp
      have h2 := h q hq
      linarith
  rw [e, hx this, this]

/-- C128 is false for a regional grid that begins at the date line: whenever the first two points lie on its two sides,
240 degrees or more apart when counted from -180 to 180, the grid is taken as global. -/
theorem dateline_taken_global (a b : Pt) (l : List Pt) (ha : -180 ≤ a.lon ∧ a.lon ≤ 360) (hb : -180 ≤ b.lon ∧ b.lon ≤ 360)
    (h : 240 ≤ Spec.firstStep a b) : ∃ ext, triSource (a :: b :: l) = .ok (true, ext) := by
  obtain ⟨g, ext, e, hg, -⟩ := global_iff a b l
  have hr : ∀ x : ℚ, -180 ≤ x → x ≤ 360 → -180 ≤ Spec.east x ∧ Spec.east x ≤ 180 := by
    intro x h1 h2
    unfold Spec.east
    split
    · exact ⟨h1, by assumption⟩
    · constructor <;> linarith
  have : g = true := by
    rw [hg]
    unfold Spec.firstStep at h ⊢
    have h1 := hr _ ha.1 ha.2
    have h2 := hr _ hb.1 hb.2
    rcases abs_cases (Spec.east a.lon - Spec.east b.lon) with ⟨e1, -⟩ | ⟨e1, -⟩
    · exact ⟨a, List.mem_cons_self, b, List.mem_cons_of_mem _ List.mem_cons_self, by rw [e1] at h ⊢; linarith⟩
    · exact ⟨b, List.mem_cons_of_mem _ List.mem_cons_self, a, List.mem_cons_self, by rw [e1] at h ⊢; linarith⟩
  exact ⟨ext, by rw [e, this]⟩

/-- C128 is false for a global grid listed by columns: when the first two points have the same longitude the grid is
never taken as global. -/
theorem columns_not_global (a b : Pt) (l : List Pt) (h : a.lon = b.lon)
    (hr : ∀ p ∈ a :: b :: l, -180 ≤ p.lon ∧ p.lon ≤ 360) :
    triSource (a :: b :: l) = .ok (false, (a :: b :: l).map fun p => ⟨p.lat, Spec.east p.lon⟩) := by
  refine regional_not_global a b l (-180) 180 (fun p hp => ?_) ?_
  · have := hr p hp
    unfold Spec.east
    split
    · exact ⟨this.1, by assumption⟩
    · constructor <;> linarith
  · unfold Spec.firstStep
    rw [h, sub_self, abs_zero]
    norm_num

/-- **C128 (violation).** Target longitudes are not brought to -180 to 180: a target east of the westernmost source
point by more than a full turn and three spacings lies in no triangle of source points (`f` is the scaling of the
latitudes), so it is left out although the grid is global. -/
theorem target_beyond (a b : Pt) (l : List Pt) (ext : List Pt) (m : ℚ) (f : ℚ → ℚ)
    (h : triSource (a :: b :: l) = .ok (true, ext)) (hm : Spec.Westmost (a :: b :: l) m)
    (hr : ∀ p ∈ a :: b :: l, -180 ≤ p.lon ∧ p.lon ≤ 360) (t : Pt)
    (ht : m + 360 + 3 * Spec.firstStep a b ≤ t.lon) (v1 v2 v3 : Pt) (h1 : v1 ∈ ext) (h2 : v2 ∈ ext) (h3 : v3 ∈ ext) :
    ¬ Spec.InTriangle t ⟨f v1.lat, v1.lon⟩ ⟨f v2.lat, v2.lon⟩ ⟨f v3.lat, v3.lon⟩ := by
  obtain ⟨M, hM⟩ := exists_eastmost (pts := a :: b :: l) (List.cons_ne_nil _ _)
  have hspan : ∀ p ∈ a :: b :: l, -180 ≤ Spec.east p.lon ∧ Spec.east p.lon ≤ 180 := by
    intro p hp
    have := hr p hp
    unfold Spec.east
    split
    · exact ⟨this.1, by assumption⟩
    · constructor <;> linarith
  have hpos : 0 < Spec.firstStep a b := by
    obtain ⟨g, e', he, hg, -⟩ := global_iff a b l
    rw [h] at he
    cases he
    obtain ⟨p, hp, q, hq, hpq⟩ := hg.1 rfl
    have := hspan p hp
    have := hspan q hq
    linarith
  have below : ∀ q ∈ ext, q.lon < t.lon := by
    intro q hq
    obtain ⟨p, hp, -, e | ⟨e, -⟩ | ⟨e, hc⟩⟩ := (global_copies a b l ext M m h hM hm q).1 hq
    · obtain ⟨w, hw, ew⟩ := hm.1
      have := hspan p hp
      have := hspan w hw
      rw [e]; linarith
    · obtain ⟨w, hw, ew⟩ := hm.1
      have := hspan p hp
      have := hspan w hw
      rw [e]; linarith
    · rw [e]; linarith
  rintro ⟨c1, c2, c3, hmean⟩
  obtain ⟨⟨n1, n2, n3⟩, hs, -, hl⟩ := (IsMean3_iff _ _ _ _ _ _ _).1 hmean
  have b1 := below v1 h1
  have b2 := below v2 h2
  have b3 := below v3 h3
  dsimp only at hl
  have : c1 * v1.lon + c2 * v2.lon + c3 * v3.lon < (c1 + c2 + c3) * t.lon := by
    by_cases z1 : c1 = 0
    · by_cases z2 : c2 = 0
      · have : 0 < c3 := by linarith
        nlinarith
      · have : 0 < c2 := lt_of_le_of_ne n2 (Ne.symm z2)
        nlinarith
    · have : 0 < c1 := lt_of_le_of_ne n1 (Ne.symm z1)
      nlinarith
  rw [hl, hs] at this
  linarith

/-- With fewer than two source points the triangulation fails. -/
theorem few_points : triSource [] = .error .valueError ∧ ∀ p, triSource [p] = .error .indexError := ⟨rfl, fun _ => rfl⟩

/-! ## Concrete cases -/

namespace Demo

/-- Two rows of four points, 90 degrees apart, from longitude 0. -/
def quarterGrid : List Pt := [⟨60, 0⟩, ⟨60, 90⟩, ⟨60, 180⟩, ⟨60, 270⟩, ⟨0, 0⟩, ⟨0, 90⟩, ⟨0, 180⟩, ⟨0, 270⟩]

example : (∀ k : Nat, k < 4 → ∃ p ∈ quarterGrid, p.lon = k * 90) ∧ ∀ p ∈ quarterGrid, ∃ k : Nat, k < 4 ∧ p.lon = k * 90 := by
  decide +kernel

example : (triSource quarterGrid).map (·.1) = .ok true := by decide +kernel

/-- A regional grid east of the date line, from 180 to 183: the difference of the first two longitudes is 359. -/
def fiji : List Pt := [⟨-15, 180⟩, ⟨-15, 181⟩, ⟨-15, 182⟩, ⟨-16, 180⟩, ⟨-16, 181⟩, ⟨-16, 182⟩]

example : Spec.firstStep ⟨-15, 180⟩ ⟨-15, 181⟩ = 359 := by decide +kernel

/-- A target at longitude 0 lies in a triangle of points of that grid. -/
example : ∃ ext, triSource fiji = .ok (true, ext) ∧ (⟨-15, 180⟩ : Pt) ∈ ext ∧ (⟨-15, -179⟩ : Pt) ∈ ext ∧ (⟨-16, 180⟩ : Pt) ∈ ext ∧
    inTriangle ⟨-121/8, 0⟩ ⟨-15, 180⟩ ⟨-15, -179⟩ ⟨-16, 180⟩ = true := by
  refine ⟨padded (normPts fiji), ?_⟩
  decide +kernel

/-- The same grid from 170 to 172 is not taken as global. -/
example : (triSource [⟨-15, 170⟩, ⟨-15, 171⟩, ⟨-15, 172⟩, ⟨-16, 170⟩, ⟨-16, 171⟩, ⟨-16, 172⟩]).map (·.1) = .ok false := by
  decide +kernel

end Demo

end PyG2P
