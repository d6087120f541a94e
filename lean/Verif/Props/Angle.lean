import Verif.Model.Angle
import Verif.Props.BilinearRoot
import Verif.Props.Bilinear

/-! # C100: a vertex to give up is always found -/

namespace PyG2P
open ScipyLib

/-- Twice the signed area of the triangle `b c a`, and the scalar product of its sides at `b`. -/
def dot2 (a b c : Pt) : ℚ := (a.lat - b.lat) * (c.lat - b.lat) + (a.lon - b.lon) * (c.lon - b.lon)

theorem getAngle_range (a b c : Pt) : 0 ≤ getAngle a b c ∧ getAngle a b c < 360 := by
  have hpi := Real.pi_pos
  have h1 := Complex.arg_le_pi ⟨((c.lat - b.lat : ℚ) : ℝ), ((c.lon - b.lon : ℚ) : ℝ)⟩
  have h2 := Complex.neg_pi_lt_arg ⟨((c.lat - b.lat : ℚ) : ℝ), ((c.lon - b.lon : ℚ) : ℝ)⟩
  have h3 := Complex.arg_le_pi ⟨((a.lat - b.lat : ℚ) : ℝ), ((a.lon - b.lon : ℚ) : ℝ)⟩
  have h4 := Complex.neg_pi_lt_arg ⟨((a.lat - b.lat : ℚ) : ℝ), ((a.lon - b.lon : ℚ) : ℝ)⟩
  change dirAngle b c ≤ _ at h1
  change _ < dirAngle b c at h2
  change dirAngle b a ≤ _ at h3
  change _ < dirAngle b a at h4
  unfold getAngle
  dsimp only
  have e : (dirAngle b c - dirAngle b a) * 180 / Real.pi < 360 := by rw [div_lt_iff₀ hpi]; nlinarith
  have e' : -360 < (dirAngle b c - dirAngle b a) * 180 / Real.pi := by rw [lt_div_iff₀ hpi]; nlinarith
  split
  · constructor <;> linarith
  · constructor <;> linarith

/-- Length times sine and cosine of the angle. -/
theorem getAngle_polar (a b c : Pt) : ∃ r : ℝ, 0 ≤ r ∧ (a ≠ b → c ≠ b → 0 < r) ∧
    ((area2 b a c : ℚ) : ℝ) = r * Real.sin (getAngle a b c * Real.pi / 180) ∧
    ((dot2 a b c : ℚ) : ℝ) = r * Real.cos (getAngle a b c * Real.pi / 180) := by
  set za : ℂ := ⟨((a.lat - b.lat : ℚ) : ℝ), ((a.lon - b.lon : ℚ) : ℝ)⟩ with hza
  set zc : ℂ := ⟨((c.lat - b.lat : ℚ) : ℝ), ((c.lon - b.lon : ℚ) : ℝ)⟩ with hzc
  have hpi := Real.pi_pos
  have hs : Real.sin (getAngle a b c * Real.pi / 180) = Real.sin (zc.arg - za.arg) ∧
      Real.cos (getAngle a b c * Real.pi / 180) = Real.cos (zc.arg - za.arg) := by
    have e : (zc.arg - za.arg) * 180 / Real.pi * Real.pi / 180 = zc.arg - za.arg := by field_simp
    unfold getAngle
    change Real.sin ((if (zc.arg - za.arg) * 180 / Real.pi < 0 then (zc.arg - za.arg) * 180 / Real.pi + 360 else
      (zc.arg - za.arg) * 180 / Real.pi) * Real.pi / 180) = _ ∧
      Real.cos ((if (zc.arg - za.arg) * 180 / Real.pi < 0 then (zc.arg - za.arg) * 180 / Real.pi + 360 else
      (zc.arg - za.arg) * 180 / Real.pi) * Real.pi / 180) = _
    split
    · have : ((zc.arg - za.arg) * 180 / Real.pi + 360) * Real.pi / 180 = zc.arg - za.arg + 2 * Real.pi := by
        rw [add_mul, add_div, e]; ring
      rw [this, Real.sin_add_two_pi, Real.cos_add_two_pi]
      exact ⟨rfl, rfl⟩
    · rw [e]; exact ⟨rfl, rfl⟩
  have a1 : (za.re : ℝ) = ‖za‖ * Real.cos za.arg := (Complex.norm_mul_cos_arg za).symm
  have a2 : (za.im : ℝ) = ‖za‖ * Real.sin za.arg := (Complex.norm_mul_sin_arg za).symm
  have c1 : (zc.re : ℝ) = ‖zc‖ * Real.cos zc.arg := (Complex.norm_mul_cos_arg zc).symm
  have c2 : (zc.im : ℝ) = ‖zc‖ * Real.sin zc.arg := (Complex.norm_mul_sin_arg zc).symm
  have nz : ∀ p : Pt, p ≠ b → (⟨((p.lat - b.lat : ℚ) : ℝ), ((p.lon - b.lon : ℚ) : ℝ)⟩ : ℂ) ≠ 0 := by
    intro p hp h0
    apply hp
    have h1 := congrArg Complex.re h0
    have h2 := congrArg Complex.im h0
    simp only [Complex.zero_re, Complex.zero_im, Rat.cast_eq_zero, sub_eq_zero] at h1 h2
    cases p; cases b
    dsimp only at h1 h2
    rw [h1, h2]
  refine ⟨‖za‖ * ‖zc‖, mul_nonneg (norm_nonneg _) (norm_nonneg _),
    fun ha hc => mul_pos (norm_pos_iff.2 (nz a ha)) (norm_pos_iff.2 (nz c hc)), ?_, ?_⟩
  · have : ((area2 b a c : ℚ) : ℝ) = za.re * zc.im - zc.re * za.im := by
      rw [hza, hzc]; unfold area2; push_cast; ring
    rw [this, hs.1, a1, a2, c1, c2, Real.sin_sub]
    ring
  · have : ((dot2 a b c : ℚ) : ℝ) = za.re * zc.re + za.im * zc.im := by
      rw [hza, hzc]; unfold dot2; push_cast; ring
    rw [this, hs.2, a1, a2, c1, c2, Real.cos_sub]
    ring

/-- An angle below 180 degrees: a left turn, or the two sides point the same way. -/
theorem angle_small {a b c : Pt} (ha : a ≠ b) (hc : c ≠ b) (h : getAngle a b c < 180) :
    0 < area2 b a c ∨ (area2 b a c = 0 ∧ 0 < dot2 a b c) := by
  obtain ⟨r, -, hr, e1, e2⟩ := getAngle_polar a b c
  have hr := hr ha hc
  have hpi := Real.pi_pos
  have h0 := (getAngle_range a b c).1
  set x := getAngle a b c * Real.pi / 180 with hx
  have hx0 : 0 ≤ x := by rw [hx]; positivity
  have hx1 : x < Real.pi := by rw [hx, div_lt_iff₀ (by norm_num)]; nlinarith
  rcases hx0.eq_or_lt with h00 | hpos
  · right
    rw [← h00, Real.sin_zero, mul_zero] at e1
    rw [← h00, Real.cos_zero, mul_one] at e2
    exact ⟨by exact_mod_cast e1, by rw [← e2] at hr; exact_mod_cast hr⟩
  · left
    have := mul_pos hr (Real.sin_pos_of_pos_of_lt_pi hpos hx1)
    rw [← e1] at this
    exact_mod_cast this

/-- An angle above 180 degrees is a right turn. -/
theorem angle_large {a b c : Pt} (ha : a ≠ b) (hc : c ≠ b) (h : 180 ≤ getAngle a b c) : area2 b a c ≤ 0 := by
  obtain ⟨r, -, hr, e1, e2⟩ := getAngle_polar a b c
  have hr := hr ha hc
  have hpi := Real.pi_pos
  have h0 := (getAngle_range a b c).2
  set x := getAngle a b c * Real.pi / 180 with hx
  have hx0 : Real.pi ≤ x := by rw [hx, le_div_iff₀ (by norm_num)]; nlinarith
  have hx1 : x ≤ 2 * Real.pi := by rw [hx, div_le_iff₀ (by norm_num)]; nlinarith
  have hs : Real.sin x ≤ 0 := by
    rw [← Real.sin_sub_two_pi]
    exact Real.sin_nonpos_of_nonpos_of_neg_pi_le (by linarith) (by linarith)
  have := mul_nonpos_of_nonneg_of_nonpos hr.le hs
  rw [← e1] at this
  exact_mod_cast this

/-- A point between the two sides of a folded vertex `b`: the turns at its neighbours have opposite signs. -/
theorem folded {a b c d : Pt} (h0 : area2 b a c = 0) (hd : 0 < dot2 a b c) (ha : 0 ≤ area2 a d b)
    (hc : 0 ≤ area2 c b d) : area2 a d b = 0 ∧ area2 c b d = 0 := by
  have hw : 0 < (c.lat - b.lat) ^ 2 + (c.lon - b.lon) ^ 2 := by
    rcases (add_nonneg (sq_nonneg (c.lat - b.lat)) (sq_nonneg (c.lon - b.lon))).eq_or_lt with h | h
    · exfalso
      have h1 : c.lat - b.lat = 0 := by
        have := sq_nonneg (c.lon - b.lon)
        have := sq_nonneg (c.lat - b.lat)
        exact pow_eq_zero_iff (two_ne_zero) |>.1 (by linarith)
      have h2 : c.lon - b.lon = 0 := by
        have := sq_nonneg (c.lon - b.lon)
        have := sq_nonneg (c.lat - b.lat)
        exact pow_eq_zero_iff (two_ne_zero) |>.1 (by linarith)
      unfold dot2 at hd
      rw [h1, h2] at hd
      simp at hd
    · exact h
  have key : area2 a d b * ((c.lat - b.lat) ^ 2 + (c.lon - b.lon) ^ 2) + dot2 a b c * area2 c b d = 0 := by
    unfold area2 dot2 at *
    linear_combination ((d.lat - b.lat) * (c.lat - b.lat) + (d.lon - b.lon) * (c.lon - b.lon)) * h0
  have h1 := mul_nonneg ha hw.le
  have h2 := mul_nonneg hd.le hc
  constructor
  · rcases mul_eq_zero.1 (show area2 a d b * ((c.lat - b.lat) ^ 2 + (c.lon - b.lon) ^ 2) = 0 by linarith) with h | h
    · exact h
    · exact absurd h hw.ne'
  · rcases mul_eq_zero.1 (show dot2 a b c * area2 c b d = 0 by linarith) with h | h
    · exact absurd h hd.ne'
    · exact h

/-- Four right turns in the order of the corners: the diagonals cross. -/
theorem turns_convex {p1 p2 p3 p4 : Pt} (k1 : 0 < area2 p1 p4 p2) (k2 : 0 < area2 p2 p1 p3) (k3 : 0 < area2 p3 p2 p4)
    (k4 : 0 < area2 p4 p3 p1) : isConvex p1 p2 p3 p4 = true := by
  rw [convex_test]
  have hs : area2 p1 p4 p2 + area2 p3 p2 p4 = area2 p2 p1 p3 + area2 p4 p3 p1 := by unfold area2; ring
  set S := area2 p2 p1 p3 + area2 p4 p3 p1 with hS
  have hS0 : 0 < S := by linarith
  refine ⟨area2 p1 p4 p2 / S, area2 p2 p1 p3 / S, ⟨div_pos k1 hS0, ?_⟩, ⟨div_pos k2 hS0, ?_⟩, ?_, ?_, ?_⟩
  · rw [div_lt_one hS0]; linarith
  · rw [div_lt_one hS0]; linarith
  · field_simp
    rw [hS]
    unfold area2
    ring
  · field_simp
    rw [hS]
    unfold area2
    ring
  · rw [collinear_iff]
    have : area2 p1 p2 p3 = - area2 p2 p1 p3 := by unfold area2; ring
    rw [this]
    linarith

theorem parallel {ex ey x y : ℚ} (he : ¬ (ex = 0 ∧ ey = 0)) (h : ex * y = x * ey) : ∃ k, x = k * ex ∧ y = k * ey := by
  by_cases h0 : ex = 0
  · have hy : ey ≠ 0 := fun h' => he ⟨h0, h'⟩
    refine ⟨y / ey, ?_, ?_⟩
    · rw [h0, zero_mul] at h
      rw [h0, mul_zero]
      exact (mul_eq_zero.1 h.symm).resolve_right hy
    · field_simp
  · refine ⟨x / ex, ?_, ?_⟩
    · field_simp
    · field_simp
      linarith

/-- Four points on a line that turn back at each of them are not in the order of the corners. -/
theorem zigzag {p1 p2 p3 p4 : Pt} (h12 : p1 ≠ p2)
    (k1 : area2 p1 p4 p2 = 0) (k2 : area2 p2 p1 p3 = 0) (d1 : 0 < dot2 p4 p1 p2) (d2 : 0 < dot2 p1 p2 p3)
    (d4 : 0 < dot2 p3 p4 p1) (o14 : p1.lat ≤ p4.lat) (o23 : p2.lat ≤ p3.lat)
    (o12 : p1.lon * 1000 + p1.lat ≤ p2.lon * 1000 + p2.lat)
    (o43 : p4.lon * 1000 + p4.lat ≤ p3.lon * 1000 + p3.lat) : False := by
  set ex := p2.lat - p1.lat with hex
  set ey := p2.lon - p1.lon with hey
  have he : ¬ (ex = 0 ∧ ey = 0) := by
    rintro ⟨h1, h2⟩
    apply h12
    cases p1; cases p2
    dsimp only at *
    rw [hex, sub_eq_zero] at h1
    rw [hey, sub_eq_zero] at h2
    rw [h1, h2]
  obtain ⟨m, m1, m2⟩ := parallel (x := p4.lat - p1.lat) (y := p4.lon - p1.lon) he (by
    unfold area2 at k1; linear_combination -k1)
  obtain ⟨l, l1, l2⟩ := parallel (x := p3.lat - p2.lat) (y := p3.lon - p2.lon) he (by
    unfold area2 at k2; linear_combination -k2)
  have hn : 0 < ex ^ 2 + ey ^ 2 := by
    rcases (add_nonneg (sq_nonneg ex) (sq_nonneg ey)).eq_or_lt with h | h
    · exfalso
      have a1 := sq_nonneg ex
      have a2 := sq_nonneg ey
      exact he ⟨pow_eq_zero_iff two_ne_zero |>.1 (by linarith), pow_eq_zero_iff two_ne_zero |>.1 (by linarith)⟩
    · exact h
  have hm : 0 < m := by
    have : dot2 p4 p1 p2 = m * (ex ^ 2 + ey ^ 2) := by
      unfold dot2; rw [m1, m2, ← hex, ← hey]; ring
    rw [this] at d1
    exact (pos_iff_pos_of_mul_pos d1).2 hn
  have hl : l < 0 := by
    have : dot2 p1 p2 p3 = -l * (ex ^ 2 + ey ^ 2) := by
      unfold dot2; rw [l1, l2, hex, hey]; ring
    rw [this] at d2
    have := (pos_iff_pos_of_mul_pos d2).2 hn
    linarith
  have x34 : p3.lat - p4.lat = (1 + l - m) * ex := by linear_combination l1 - m1
  have y34 : p3.lon - p4.lon = (1 + l - m) * ey := by linear_combination l2 - m2
  have hv : 1 + l - m < 0 := by
    have : dot2 p3 p4 p1 = -(1 + l - m) * m * (ex ^ 2 + ey ^ 2) := by
      unfold dot2; rw [x34, y34]
      have a1 : p1.lat - p4.lat = -m * ex := by linear_combination -m1
      have a2 : p1.lon - p4.lon = -m * ey := by linear_combination -m2
      rw [a1, a2]; ring
    rw [this] at d4
    have := (pos_iff_pos_of_mul_pos d4).2 hn
    have := (pos_iff_pos_of_mul_pos this).2 hm
    linarith
  have key : 0 ≤ ey * 1000 + ex := by rw [hex, hey]; linarith
  have key' : 0 ≤ (1 + l - m) * (ey * 1000 + ex) := by
    have : (1 + l - m) * (ey * 1000 + ex) = p3.lon * 1000 + p3.lat - (p4.lon * 1000 + p4.lat) := by
      linear_combination -1000 * y34 - x34
    rw [this]; linarith
  have k0 : ey * 1000 + ex = 0 := by
    rcases key.eq_or_lt with h | h
    · exact h.symm
    · have := mul_neg_of_neg_of_pos hv h; linarith
  have hx : ex = 0 := by
    have b1 : 0 ≤ m * ex := by rw [← m1]; linarith
    have b2 : 0 ≤ l * ex := by rw [← l1]; linarith
    rcases lt_trichotomy ex 0 with h | h | h
    · have := mul_neg_of_pos_of_neg hm h; linarith
    · exact h
    · have := mul_neg_of_neg_of_pos hl h; linarith
  exact he ⟨hx, by rw [hx] at k0; linarith⟩

/-- **C100.** Four different points in the order of the corners that are not convex: a vertex to give up is found (the
assertion that there is one does not fail). -/
theorem nonConvex_found (l : List Corner) (hl : l.length = 4) (hn : (l.map (·.pt)).Nodup) (p1 p2 p3 p4 : Corner)
    (hc : clockwise l = some (p1, p2, p3, p4)) (hv : isConvex p1.pt p2.pt p3.pt p4.pt = false) :
    ∃ i ∈ l.map (·.ix), nonConvexVertex p1 p2 p3 p4 = some i := by
  obtain ⟨q1, q2, q3, q4, hq, hperm, o14, o23, ho⟩ := corners_permuted l hl
  rw [hc] at hq
  cases hq
  have hn' : ([p1, p2, p3, p4].map (·.pt)).Nodup := (hperm.map _).nodup_iff.2 hn
  have hmem : ∀ c ∈ [p1, p2, p3, p4], c.ix ∈ l.map (·.ix) := fun c hcm =>
    List.mem_map_of_mem (hperm.mem_iff.1 hcm)
  simp only [List.map_cons, List.map_nil, List.nodup_cons, List.mem_cons, List.not_mem_nil, or_false, not_or,
    not_false_eq_true, List.nodup_nil, and_true] at hn'
  obtain ⟨⟨n12, n13, n14⟩, ⟨n23, n24⟩, n34⟩ := hn'
  unfold nonConvexVertex
  by_cases a2 : 179.9 ≤ getAngle p1.pt p2.pt p3.pt
  · rw [if_pos a2]; exact ⟨_, hmem p2 (by simp), rfl⟩
  rw [if_neg a2]
  by_cases a3 : 179.9 ≤ getAngle p2.pt p3.pt p4.pt
  · rw [if_pos a3]; exact ⟨_, hmem p3 (by simp), rfl⟩
  rw [if_neg a3]
  by_cases a4 : 179.9 ≤ getAngle p3.pt p4.pt p1.pt
  · rw [if_pos a4]; exact ⟨_, hmem p4 (by simp), rfl⟩
  rw [if_neg a4]
  by_cases a1 : 179.9 ≤ getAngle p4.pt p1.pt p2.pt
  · rw [if_pos a1]; exact ⟨_, hmem p1 (by simp), rfl⟩
  exfalso
  have lt : ∀ {x : ℝ}, ¬ 179.9 ≤ x → x < 180 := fun h => lt_of_lt_of_le (not_le.1 h) (by norm_num)
  have b1 := angle_small (Ne.symm n14) (Ne.symm n12) (lt a1)
  have b2 := angle_small n12 (Ne.symm n23) (lt a2)
  have b3 := angle_small n23 (Ne.symm n34) (lt a3)
  have b4 := angle_small n34 n14 (lt a4)
  have ge : ∀ {x y : ℚ}, 0 < x ∨ x = 0 ∧ 0 < y → 0 ≤ x := by
    rintro x y (h | h)
    · exact h.le
    · exact h.1.ge
  have o12 := ho p1 (by simp) p2 (by simp)
  have o43 := ho p4 (by simp) p3 (by simp)
  have fin : area2 p1.pt p4.pt p2.pt = 0 → area2 p2.pt p1.pt p3.pt = 0 → area2 p4.pt p3.pt p1.pt = 0 → False := by
    intro z1 z2 z4
    have d1 : 0 < dot2 p4.pt p1.pt p2.pt := by
      rcases b1 with h | h
      · rw [z1] at h; exact absurd h (lt_irrefl _)
      · exact h.2
    have d2 : 0 < dot2 p1.pt p2.pt p3.pt := by
      rcases b2 with h | h
      · rw [z2] at h; exact absurd h (lt_irrefl _)
      · exact h.2
    have d4 : 0 < dot2 p3.pt p4.pt p1.pt := by
      rcases b4 with h | h
      · rw [z4] at h; exact absurd h (lt_irrefl _)
      · exact h.2
    exact zigzag n12 z1 z2 d1 d2 d4 o14 o23 (by linarith) (by linarith)
  rcases b2 with k2 | ⟨z2, d2⟩
  · rcases b3 with k3 | ⟨z3, d3⟩
    · rcases b4 with k4 | ⟨z4, d4⟩
      · rcases b1 with k1 | ⟨z1, d1⟩
        · rw [turns_convex k1 k2 k3 k4] at hv
          cases hv
        · have := folded (a := p4.pt) (b := p1.pt) (c := p2.pt) (d := p3.pt) z1 d1 k4.le k2.le
          linarith [this.2]
      · have := folded (a := p3.pt) (b := p4.pt) (c := p1.pt) (d := p2.pt) z4 d4 k3.le (ge b1)
        linarith [this.1]
    · have := folded (a := p2.pt) (b := p3.pt) (c := p4.pt) (d := p1.pt) z3 d3 k2.le (ge b4)
      linarith [this.1]
  · have h2 := folded (a := p1.pt) (b := p2.pt) (c := p3.pt) (d := p4.pt) z2 d2 (ge b1) (ge b3)
    have d1 : 0 < dot2 p4.pt p1.pt p2.pt := by
      rcases b1 with h | h
      · rw [h2.1] at h; exact absurd h (lt_irrefl _)
      · exact h.2
    have h1 := folded (a := p4.pt) (b := p1.pt) (c := p2.pt) (d := p3.pt) h2.1 d1 (ge b4) z2.ge
    exact fin h2.1 z2 h1.1

/-! ## The assertion in the search -/

theorem putAll_error {wrong new idx : List Nat} {e : PyErr} (h : putAll idx wrong new = .error e) : e = .indexError := by
  unfold putAll at h
  generalize wrong.zipIdx = w at h
  induction w generalizing idx with
  | nil => cases h
  | cons p w ih =>
    rw [List.foldlM_cons] at h
    cases hv : new.reverse[p.2]? with
    | none => rw [hv] at h; cases h; rfl
    | some v => rw [hv] at h; exact ih h

theorem replaceIndex_error {E : Around} {wrong idx : List Nat} {extra : Nat} {e : PyErr}
    (h : replaceIndex E wrong idx extra = .error e) : e = .indexError := by
  unfold replaceIndex at h
  dsimp only [bind, Except.bind] at h
  cases hp : putAll idx wrong ((E.near (4 + (extra + wrong.length))).filter fun i => i ∉ idx) with
  | error e' => rw [hp] at h; cases h; exact putAll_error hp
  | ok l => rw [hp] at h; cases h

theorem replaceClose_error {E : Around} {wrong idx : List Nat} {p : Pt} {e : PyErr}
    (h : replaceClose E wrong p idx = .error e) : e = .indexError := by
  unfold replaceClose at h
  dsimp only [bind, Except.bind] at h
  cases hp : putAll idx wrong (E.nearTo p wrong.length) with
  | error e' => rw [hp] at h; cases h; exact putAll_error hp
  | ok l => rw [hp] at h; cases h

theorem cornersOf_error {E : Around} {idx : List Nat} {e : PyErr} (h : cornersOf E idx = .error e) : e = .indexError := by
  unfold cornersOf at h
  induction idx with
  | nil => cases h
  | cons i idx ih =>
    rw [List.mapM_cons] at h
    dsimp only [bind, Except.bind] at h
    cases hi : E.coord i with
    | none => unfold cornerAt at h; rw [hi] at h; cases h; rfl
    | some p =>
      have hca : cornerAt E i = .ok ⟨p, i⟩ := by unfold cornerAt; rw [hi]
      rw [hca] at h
      dsimp only at h
      cases hm : idx.mapM (cornerAt E) with
      | error e' => rw [hm] at h; cases h; exact ih hm
      | ok l => rw [hm] at h; cases h

/-- No two source points have the same coordinates as seen from the cell. -/
def Spec.DistinctPoints (E : Around) : Prop := ∀ i j p, E.coord i = some p → E.coord j = some p → i = j

theorem corners_distinct {E : Around} (hE : Spec.DistinctPoints E) {idx : List Nat} {cs : List Corner}
    (h : cornersOf E idx = .ok cs) (hn : idx.Nodup) : (cs.map (·.pt)).Nodup := by
  obtain ⟨h1, h2⟩ := cornersOf_spec h
  rw [← h1] at hn
  refine List.Nodup.map_on ?_ (List.Nodup.of_map _ hn)
  intro a ha b hb he
  have := hE a.ix b.ix a.pt (h2 a ha) (he ▸ h2 b hb)
  cases a; cases b
  dsimp only at *
  rw [this, he]

theorem roundQuad_error {E : Around} (hv : E.nonConvex = nonConvexVertex) {rotated : Bool} {s : Search} {cs : List Corner}
    {e : PyErr} (hl : cs.length = 4) (hn : (cs.map (·.pt)).Nodup) (h : roundQuad E rotated s cs = .error e) :
    e = .indexError := by
  obtain ⟨p1, p2, p3, p4, hcl, -⟩ := corners_permuted cs hl
  unfold roundQuad at h
  rw [hcl] at h
  dsimp only at h
  by_cases hcv : rotated = false ∧ isConvex p1.pt p2.pt p3.pt p4.pt = false
  · rw [if_pos hcv] at h
    obtain ⟨i, -, hi⟩ := nonConvex_found cs hl hn p1 p2 p3 p4 hcl hcv.2
    rw [hv, hi] at h
    dsimp only [bind, Except.bind] at h
    cases hr : replaceIndex E [i] s.idx s.extra with
    | error e' => rw [hr] at h; cases h; exact replaceIndex_error hr
    | ok p => rw [hr] at h; cases h
  · rw [if_neg hcv] at h
    by_cases hq : inQuadrilateral E.target p1.pt p2.pt p3.pt p4.pt = true
    · rw [if_pos hq] at h; cases h
    · rw [if_neg hq] at h
      dsimp only [bind, Except.bind] at h
      cases hr : replaceIndex E [s.idx.getD 3 0] s.idx s.extra with
      | error e' => rw [hr] at h; cases h; exact replaceIndex_error hr
      | ok p => rw [hr] at h; cases h

theorem roundChecks_error {E : Around} (hv : E.nonConvex = nonConvexVertex) {rotated : Bool} {s : Search}
    {cs : List Corner} {e : PyErr} (hl : cs.length = 4) (h : roundChecks E rotated s cs = .error e) :
    e = .indexError := by
  unfold roundChecks at h
  dsimp only at h
  by_cases hw : wrongDirection E.target cs = []
  · rw [if_neg (not_not.2 hw)] at h
    obtain ⟨⟨g, hg⟩, ⟨b, hb⟩⟩ := shape_checks_total E.target cs hl hw
    rw [hg] at h
    dsimp only [bind, Except.bind] at h
    cases g with
    | some i =>
      dsimp only at h
      cases hr : replaceIndex E [i] s.idx s.extra with
      | error e' => rw [hr] at h; cases h; exact replaceIndex_error hr
      | ok p => rw [hr] at h; cases h
    | none =>
      dsimp only at h
      rw [hb] at h
      dsimp only at h
      cases b with
      | some ip =>
        obtain ⟨i, place⟩ := ip
        dsimp only at h
        cases hr : replaceClose E [i] place s.idx with
        | error e' => rw [hr] at h; cases h; exact replaceClose_error hr
        | ok p => rw [hr] at h; cases h
      | none =>
        dsimp only at h
        exact roundQuad_error hv hl ((direction_check E.target cs hl).1 hw).1 h
  · rw [if_pos hw] at h
    by_cases hb : E.beyond = true
    · rw [if_pos hb] at h
      dsimp only [bind, Except.bind] at h
      cases hr : replaceClose E (wrongDirection E.target cs) ⟨180 - E.target.lat, E.target.lon⟩ s.idx with
      | error e' => rw [hr] at h; cases h; exact replaceClose_error hr
      | ok p =>
        rw [hr] at h
        obtain ⟨idx, four⟩ := p
        dsimp only at h
        cases four <;> cases h
    · rw [if_neg hb] at h
      dsimp only [bind, Except.bind] at h
      cases hr : replaceIndex E (wrongDirection E.target cs) s.idx s.extra with
      | error e' => rw [hr] at h; cases h; exact replaceIndex_error hr
      | ok p => rw [hr] at h; cases h

theorem round_error {E : Around} (hv : E.nonConvex = nonConvexVertex) (hE : Spec.DistinctPoints E) {rotated : Bool}
    {s : Search} {e : PyErr} (hi : s.Inv) (h : oneRound E rotated s = .error e) : e = .indexError := by
  unfold oneRound at h
  dsimp only [bind, Except.bind] at h
  cases hc : cornersOf E s.idx with
  | error e' => rw [hc] at h; cases h; exact cornersOf_error hc
  | ok cs =>
    rw [hc] at h
    dsimp only at h
    have hl : cs.length = 4 := by rw [← hi.1, ← (cornersOf_spec hc).1, List.length_map]
    by_cases hk : E.skip = true
    · rw [if_pos hk] at h; cases h
    · rw [if_neg hk] at h
      by_cases hch : s.checked = true
      · rw [if_pos hch] at h
        exact roundQuad_error hv hl (corners_distinct hE hc (hi.2 hch)) h
      · rw [if_neg hch] at h
        exact roundChecks_error hv hl h

theorem search_error {E : Around} (hv : E.nonConvex = nonConvexVertex) (hE : Spec.DistinctPoints E) (rotated : Bool)
    (retries : Nat) (s : Search) (e : PyErr) (hi : s.Inv) (h : search E rotated retries s = some (.error e)) :
    e = .indexError := by
  refine search.partial_correctness E rotated retries (fun s r => s.Inv → ∀ e, r = .error e → e = .indexError) ?_ s _ h hi
    e rfl
  intro f ih s r hr hi e he
  by_cases hx : s.extra < retries
  · rw [if_pos hx] at hr
    cases hrd : oneRound E rotated s with
    | error e' =>
      rw [hrd] at hr
      cases hr
      cases he
      exact round_error hv hE hi hrd
    | ok rd =>
      rw [hrd] at hr
      rcases round_spec hi hrd with ⟨s', rfl, hi', -⟩ | ⟨rfl, -⟩ | ⟨rfl, -⟩ | ⟨s', q, rfl, -⟩
      · exact ih s' r hr hi' e he
      all_goals
        cases hr
        cases he
  · rw [if_neg hx] at hr
    cases hr
    cases he

/-- **C100 (in the program, the part that holds)**: if no two source points have the same coordinates, a cell of the
bilinear method never fails with the assertion. The only errors left are that of a source grid with too few points
(`IndexError`) and that of C97 (`AttributeError`). -/
theorem bilinear_assertion_partial (rotated : Bool) (bound : ℚ) (retries : Nat) (held : Option Quad) (c : BCell)
    (h4 : c.row.length = 4) (hn : (c.row.map (·.2)).Nodup) (hv : c.around.nonConvex = nonConvexVertex)
    (hE : Spec.DistinctPoints c.around) (e : PyErr)
    (h : bilinearCell rotated bound retries held c = some (.error e)) : e = .indexError ∨ e = .attributeError := by
  unfold bilinearCell at h
  dsimp only at h
  by_cases h1 : (c.row.headD (0, 0)).1 ≤ 1 / 10000000000
  · rw [if_pos h1] at h; cases h
  · rw [if_neg h1] at h
    by_cases h2 : bound < (c.row.headD (0, 0)).1
    · rw [if_pos h2] at h; cases h
    · rw [if_neg h2] at h
      cases hs : search c.around rotated (if rotated = true then 20 else retries) ⟨c.row.map (·.2), 0, rotated, held⟩ with
      | none => rw [hs] at h; cases h
      | some r =>
        rw [hs, Option.map_some, Option.some.injEq] at h
        have hrow : ∀ s : Option Quad, rowOf c.root s = .error e → e = .attributeError := by
          intro s hh
          unfold rowOf at hh
          cases s with
          | none => cases hh; rfl
          | some q => cases hh
        cases r with
        | error e' =>
          cases h
          exact Or.inl (search_error hv hE rotated _ _ _ (start_inv h4 hn) hs)
        | ok rd =>
          cases rd with
          | again s => exact Or.inr (hrow _ h)
          | found s => exact Or.inr (hrow _ h)
          | leftOut s => cases h
          | single s => cases h

/-! ## Source points with the same coordinates -/

/-- A right turn, or a turn back: an angle of at least 180 degrees. -/
theorem angle_straight {a b c : Pt} (ha : a ≠ b) (hc : c ≠ b) (h : area2 b a c = 0) (hd : dot2 a b c ≤ 0) :
    180 ≤ getAngle a b c := by
  by_contra hh
  rcases angle_small ha hc (not_le.1 hh) with h' | h'
  · linarith
  · linarith [h'.2]

theorem angle_acute {a b c : Pt} (ha : a ≠ b) (hc : c ≠ b) (h : 0 < area2 b a c) (hd : 0 ≤ dot2 a b c) :
    getAngle a b c ≤ 90 := by
  obtain ⟨r, -, hr, e1, e2⟩ := getAngle_polar a b c
  have hr := hr ha hc
  have hpi := Real.pi_pos
  obtain ⟨h0, h1⟩ := getAngle_range a b c
  by_contra hh
  rw [not_le] at hh
  set x := getAngle a b c * Real.pi / 180 with hx
  have hx0 : Real.pi / 2 < x := by rw [hx, lt_div_iff₀ (by norm_num)]; nlinarith
  have hx1 : x < 2 * Real.pi := by rw [hx, div_lt_iff₀ (by norm_num)]; nlinarith
  have hs : 0 < Real.sin x := by
    have h' : (0 : ℝ) < ((area2 b a c : ℚ) : ℝ) := by exact_mod_cast h
    rw [e1] at h'
    exact (pos_iff_pos_of_mul_pos h').1 hr
  have hcs : 0 ≤ Real.cos x := by
    have h' : (0 : ℝ) ≤ ((dot2 a b c : ℚ) : ℝ) := by exact_mod_cast hd
    rw [e2] at h'
    exact nonneg_of_mul_nonneg_right h' hr
  have hxp : x < Real.pi := by
    by_contra hge
    rw [not_lt] at hge
    have := Real.sin_nonpos_of_nonpos_of_neg_pi_le (x := x - 2 * Real.pi) (by linarith) (by linarith)
    rw [Real.sin_sub_two_pi] at this
    linarith
  have := Real.cos_neg_of_pi_div_two_lt_of_lt hx0 (by linarith)
  linarith

namespace Demo

/-- Five source points around (0, 0), in the order of their distance; the last two are the same place. -/
def dupPts : List Pt := [⟨-1, 1⟩, ⟨1, -1⟩, ⟨1, 1⟩, ⟨-11/10, 1⟩, ⟨-11/10, 1⟩]

/-- The cell at (0, 0). -/
noncomputable def dupCell : BCell :=
  { around := { target := ⟨0, 0⟩, coord := fun i => dupPts[i]?, near := fun k => [0, 1, 2, 3, 4].take k
                nearTo := fun _ k => [0, 1, 2, 3, 4].take k, nonConvex := nonConvexVertex, skip := false, beyond := false }
    root := fun _ => (1/2, 1/2)
    row := [(1, 0), (1, 1), (1, 2), (1, 3)] }

end Demo

theorem dup_first : nonConvexVertex ⟨⟨-11/10, 1⟩, 3⟩ ⟨⟨-1, 1⟩, 0⟩ ⟨⟨1, 1⟩, 2⟩ ⟨⟨1, -1⟩, 1⟩ = some 0 := by
  unfold nonConvexVertex
  rw [if_pos]
  refine le_trans (by norm_num) (angle_straight (a := ⟨-11/10, 1⟩) (b := ⟨-1, 1⟩) (c := ⟨1, 1⟩) (by decide +kernel)
    (by decide +kernel) (by decide +kernel) (by decide +kernel))

theorem dup_second (i j : Nat) :
    nonConvexVertex ⟨⟨-11/10, 1⟩, i⟩ ⟨⟨-11/10, 1⟩, j⟩ ⟨⟨1, 1⟩, 2⟩ ⟨⟨1, -1⟩, 1⟩ = none := by
  have hpi := Real.pi_pos
  have z : dirAngle ⟨-11/10, 1⟩ ⟨-11/10, 1⟩ = 0 := by
    unfold dirAngle
    rw [sub_self, sub_self, Rat.cast_zero]
    exact Complex.arg_zero
  have a1 : getAngle ⟨-11/10, 1⟩ ⟨-11/10, 1⟩ ⟨1, 1⟩ < 179.9 := by
    have : dirAngle ⟨-11/10, 1⟩ ⟨1, 1⟩ = 0 := by
      unfold dirAngle
      rw [Complex.arg_eq_zero_iff]
      constructor
      · norm_num
      · norm_num
    unfold getAngle
    rw [this, z]
    norm_num
  have a2 := angle_acute (a := ⟨-11/10, 1⟩) (b := ⟨1, 1⟩) (c := ⟨1, -1⟩) (by decide +kernel) (by decide +kernel)
    (by decide +kernel) (by decide +kernel)
  have a3 := angle_acute (a := ⟨1, 1⟩) (b := ⟨1, -1⟩) (c := ⟨-11/10, 1⟩) (by decide +kernel) (by decide +kernel)
    (by decide +kernel) (by decide +kernel)
  have a4 : getAngle ⟨1, -1⟩ ⟨-11/10, 1⟩ ⟨-11/10, 1⟩ < 179.9 := by
    have h1 : dirAngle ⟨-11/10, 1⟩ ⟨1, -1⟩ < 0 := by
      unfold dirAngle
      rw [Complex.arg_neg_iff]
      norm_num
    have h2 : -(Real.pi / 2) ≤ dirAngle ⟨-11/10, 1⟩ ⟨1, -1⟩ := by
      unfold dirAngle
      rw [Complex.neg_pi_div_two_le_arg_iff]
      left
      norm_num
    unfold getAngle
    rw [z]
    dsimp only
    rw [if_neg (by rw [not_lt]; apply div_nonneg _ hpi.le; linarith), div_lt_iff₀ hpi]
    linarith
  unfold nonConvexVertex
  dsimp only
  rw [if_neg (not_le.2 a1), if_neg, if_neg, if_neg (not_le.2 a4)]
  · rw [not_le]; refine lt_of_le_of_lt a3 (by norm_num)
  · rw [not_le]; refine lt_of_le_of_lt a2 (by norm_num)

/-- **C100 is violated**: two source points with the same coordinates (a grid with a column at longitude 0 and one at
360, or the points of the south pole): the bilinear method ends in an `AssertionError`. -/
theorem bilinear_assertion_fails (retries : Nat) (hr : 2 ≤ retries) (held : Option Quad) :
    bilinearCell false 2 retries held Demo.dupCell = some (.error .valueError) := by
  set E := Demo.dupCell.around with hE
  have c1 : cornersOf E [0, 1, 2, 3] =
      .ok [⟨⟨-1, 1⟩, 0⟩, ⟨⟨1, -1⟩, 1⟩, ⟨⟨1, 1⟩, 2⟩, ⟨⟨-11/10, 1⟩, 3⟩] := rfl
  have c2 : cornersOf E [4, 1, 2, 3] =
      .ok [⟨⟨-11/10, 1⟩, 4⟩, ⟨⟨1, -1⟩, 1⟩, ⟨⟨1, 1⟩, 2⟩, ⟨⟨-11/10, 1⟩, 3⟩] := rfl
  have w1 : clockwise [⟨⟨-1, 1⟩, 0⟩, ⟨⟨1, -1⟩, 1⟩, ⟨⟨1, 1⟩, 2⟩, ⟨⟨-11/10, 1⟩, 3⟩] =
      some (⟨⟨-11/10, 1⟩, 3⟩, ⟨⟨-1, 1⟩, 0⟩, ⟨⟨1, 1⟩, 2⟩, ⟨⟨1, -1⟩, 1⟩) := by decide +kernel
  have w2 : clockwise [⟨⟨-11/10, 1⟩, 4⟩, ⟨⟨1, -1⟩, 1⟩, ⟨⟨1, 1⟩, 2⟩, ⟨⟨-11/10, 1⟩, 3⟩] =
      some (⟨⟨-11/10, 1⟩, 4⟩, ⟨⟨-11/10, 1⟩, 3⟩, ⟨⟨1, 1⟩, 2⟩, ⟨⟨1, -1⟩, 1⟩) := by decide +kernel
  have hr1 : replaceIndex E [0] [0, 1, 2, 3] 0 = .ok ([4, 1, 2, 3], 1) := rfl
  have h1 : oneRound E false ⟨[0, 1, 2, 3], 0, false, held⟩ =
      .ok (.again ⟨[4, 1, 2, 3], 1, true, some (⟨⟨-11/10, 1⟩, 3⟩, ⟨⟨-1, 1⟩, 0⟩, ⟨⟨1, 1⟩, 2⟩, ⟨⟨1, -1⟩, 1⟩)⟩) := by
    have d1 : wrongDirection E.target [⟨⟨-1, 1⟩, 0⟩, ⟨⟨1, -1⟩, 1⟩, ⟨⟨1, 1⟩, 2⟩, ⟨⟨-11/10, 1⟩, 3⟩] = [] := by
      change wrongDirection ⟨0, 0⟩ _ = _
      decide +kernel
    have d2 : wrongGridLike E.target [⟨⟨-1, 1⟩, 0⟩, ⟨⟨1, -1⟩, 1⟩, ⟨⟨1, 1⟩, 2⟩, ⟨⟨-11/10, 1⟩, 3⟩] = .ok none := by
      change wrongGridLike ⟨0, 0⟩ _ = _
      decide +kernel
    have d3 : wrongBestGridLike E.target [⟨⟨-1, 1⟩, 0⟩, ⟨⟨1, -1⟩, 1⟩, ⟨⟨1, 1⟩, 2⟩, ⟨⟨-11/10, 1⟩, 3⟩] = .ok none := by
      change wrongBestGridLike ⟨0, 0⟩ _ = _
      decide +kernel
    unfold oneRound
    dsimp only
    rw [c1]
    dsimp only [bind, Except.bind]
    rw [if_neg (show ¬ E.skip = true by rw [hE]; decide), if_neg (by decide)]
    unfold roundChecks
    dsimp only
    rw [d1, if_neg (by decide), d2]
    dsimp only [bind, Except.bind]
    rw [d3]
    dsimp only
    unfold roundQuad
    rw [w1]
    dsimp only
    rw [if_pos ⟨rfl, by decide +kernel⟩, show E.nonConvex = nonConvexVertex from rfl, dup_first]
    dsimp only [bind, Except.bind]
    rw [hr1]
  have h2 : oneRound E false ⟨[4, 1, 2, 3], 1, true, some (⟨⟨-11/10, 1⟩, 3⟩, ⟨⟨-1, 1⟩, 0⟩, ⟨⟨1, 1⟩, 2⟩, ⟨⟨1, -1⟩, 1⟩)⟩ =
      .error .valueError := by
    unfold oneRound
    dsimp only
    rw [c2]
    dsimp only [bind, Except.bind]
    rw [if_neg (show ¬ E.skip = true by rw [hE]; decide), if_pos rfl]
    unfold roundQuad
    rw [w2]
    dsimp only
    rw [if_pos ⟨rfl, by decide +kernel⟩, show E.nonConvex = nonConvexVertex from rfl, dup_second]
  have hs : search E false retries ⟨[0, 1, 2, 3], 0, false, held⟩ = some (.error .valueError) := by
    rw [search_again (show (0 : Nat) < retries by omega) h1, search.eq_1, if_pos (show (1 : Nat) < retries by omega), h2]
  unfold bilinearCell
  dsimp only
  rw [if_neg (by change ¬ (1 : ℚ) ≤ _; norm_num), if_neg (by change ¬ (2 : ℚ) < 1; norm_num), if_neg (by decide)]
  change Option.map _ (search E false retries ⟨[0, 1, 2, 3], 0, false, held⟩) = _
  rw [hs]
  rfl

/-- The hypotheses of `nonConvex_found` hold for the four nearest points of that cell. -/
theorem Demo.nonConvex_case : ((Demo.dupPts.zipIdx.take 4).map fun p => (⟨p.1, p.2⟩ : Corner)).length = 4 ∧
    (((Demo.dupPts.zipIdx.take 4).map fun p => (⟨p.1, p.2⟩ : Corner)).map (·.pt)).Nodup ∧
    clockwise ((Demo.dupPts.zipIdx.take 4).map fun p => (⟨p.1, p.2⟩ : Corner)) =
      some (⟨⟨-11/10, 1⟩, 3⟩, ⟨⟨-1, 1⟩, 0⟩, ⟨⟨1, 1⟩, 2⟩, ⟨⟨1, -1⟩, 1⟩) ∧
    isConvex ⟨-11/10, 1⟩ ⟨-1, 1⟩ ⟨1, 1⟩ ⟨1, -1⟩ = false := by
  decide +kernel

/-! ## C99 in the search -/

/-- **C99 (in the program)**: the corners a search on a source grid that is not rotated ends with leave exactly one
solution for the solver. -/
theorem bilinear_found_root (E : Around) (idx : List Nat) (q : Quad) (h : Spec.OwnCorners E false idx q) :
    ∃! r, Spec.BilinearRoot E.target q.1.pt q.2.1.pt q.2.2.1.pt q.2.2.2.pt r :=
  bilinear_root _ _ _ _ _ (h.2.2.2.2 rfl) h.2.2.2.1

namespace Demo

/-- Four source points around (1.5, -0.3) on a rotated grid. -/
def rotPts : List Pt := [⟨1, 0⟩, ⟨0, -2⟩, ⟨0, 2⟩, ⟨4, 0⟩]

/-- The cell at (1.5, -0.3); the solver answers `root`. -/
def rotCell (root : ℚ × ℚ) : BCell :=
  { around := { target := ⟨3/2, -3/10⟩, coord := fun i => rotPts[i]?, near := fun k => [0, 1, 2, 3].take k
                nearTo := fun _ k => [0, 1, 2, 3].take k, nonConvex := fun _ _ _ _ => none, skip := false, beyond := false }
    root := fun _ => root
    row := [(1, 0), (2, 1), (2, 2), (2, 3)] }

end Demo

/-- **C99 is violated** for rotated source grids, for which convexity is not tested: the corners of this cell are
accepted, and the system the solver is given has no solution in the unit square, whatever it answers. -/
theorem bilinear_rotated_no_root (held : Option Quad) (retries : Nat) (root : ℚ × ℚ) :
    (∃ row, bilinearCell true 2 retries held (Demo.rotCell root) = some (.ok (row,
      some (⟨⟨0, -2⟩, 1⟩, ⟨⟨0, 2⟩, 2⟩, ⟨⟨4, 0⟩, 3⟩, ⟨⟨1, 0⟩, 0⟩)))) ∧
    ¬ ∃ r, Spec.BilinearRoot ⟨3/2, -3/10⟩ ⟨0, -2⟩ ⟨0, 2⟩ ⟨4, 0⟩ ⟨1, 0⟩ r := by
  constructor
  · set E := (Demo.rotCell root).around with hE
    have c1 : cornersOf E [0, 1, 2, 3] = .ok [⟨⟨1, 0⟩, 0⟩, ⟨⟨0, -2⟩, 1⟩, ⟨⟨0, 2⟩, 2⟩, ⟨⟨4, 0⟩, 3⟩] := rfl
    have w1 : clockwise [⟨⟨1, 0⟩, 0⟩, ⟨⟨0, -2⟩, 1⟩, ⟨⟨0, 2⟩, 2⟩, ⟨⟨4, 0⟩, 3⟩] =
        some (⟨⟨0, -2⟩, 1⟩, ⟨⟨0, 2⟩, 2⟩, ⟨⟨4, 0⟩, 3⟩, ⟨⟨1, 0⟩, 0⟩) := by decide +kernel
    have h1 : oneRound E true ⟨[0, 1, 2, 3], 0, true, held⟩ =
        .ok (.found ⟨[0, 1, 2, 3], 0, true, some (⟨⟨0, -2⟩, 1⟩, ⟨⟨0, 2⟩, 2⟩, ⟨⟨4, 0⟩, 3⟩, ⟨⟨1, 0⟩, 0⟩)⟩) := by
      unfold oneRound
      dsimp only
      rw [c1]
      dsimp only [bind, Except.bind]
      rw [if_neg (show ¬ E.skip = true by change ¬ false = true; decide), if_pos rfl]
      unfold roundQuad
      rw [w1]
      dsimp only
      rw [if_neg (by simp), if_pos (by change inQuadrilateral ⟨3/2, -3/10⟩ _ _ _ _ = true; decide +kernel)]
    have hs : search E true 20 ⟨[0, 1, 2, 3], 0, true, held⟩ =
        some (.ok (.found ⟨[0, 1, 2, 3], 0, true, some (⟨⟨0, -2⟩, 1⟩, ⟨⟨0, 2⟩, 2⟩, ⟨⟨4, 0⟩, 3⟩, ⟨⟨1, 0⟩, 0⟩)⟩)) := by
      rw [search.eq_1, if_pos (show (0 : Nat) < 20 by decide), h1]
    unfold bilinearCell
    dsimp only
    rw [if_neg (by change ¬ (1 : ℚ) ≤ _; norm_num), if_neg (by change ¬ (2 : ℚ) < 1; norm_num), if_pos rfl]
    change ∃ row, Option.map _ (search E true 20 ⟨[0, 1, 2, 3], 0, true, held⟩) = _
    rw [hs]
    exact ⟨_, rfl⟩
  · rintro ⟨⟨a, b⟩, ⟨ha0, ha1⟩, ⟨hb0, hb1⟩, h1, h2⟩
    push_cast at h1 h2
    dsimp only at *
    have e1 : b * (1 + 3 * a) = 3 / 2 := by linear_combination h1
    have e2 : (2 * (1 + 3 * a) - 3) * (2 * a - 1) = -(3 / 10) * (1 + 3 * a) := by
      linear_combination (1 + 3 * a) * h2 + 2 * (2 * a - 1) * e1
    nlinarith [sq_nonneg (a - 71 / 240)]

end PyG2P
