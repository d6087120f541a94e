import Verif.Model.Delaunay
import Verif.Props.Angle
import Verif.Props.TableApply
import Mathlib.Geometry.Euclidean.Triangle
import Mathlib.Analysis.InnerProductSpace.Basic
import Mathlib.Analysis.Complex.Basic

namespace PyG2P
open ScipyLib

/-! ## The longest side -/

/-- The point in the complex plane. -/
noncomputable def planePt (p : Pt) : ℂ := ⟨(p.lat : ℝ), (p.lon : ℝ)⟩

theorem planePt_inj {a b : Pt} (h : planePt a = planePt b) : a = b := by
  have h1 := congrArg Complex.re h
  have h2 := congrArg Complex.im h
  simp only [planePt, Rat.cast_inj] at h1 h2
  cases a; cases b; simp_all

/-- The square of the distance of two points. -/
def dist2 (a b : Pt) : ℚ := (a.lat - b.lat) ^ 2 + (a.lon - b.lon) ^ 2

theorem planeNorm (a b : Pt) : ‖planePt a - planePt b‖ ^ 2 = ((dist2 a b : ℚ) : ℝ) := by
  rw [Complex.sq_norm, Complex.normSq_apply]
  simp only [planePt, dist2, Complex.sub_re, Complex.sub_im]
  push_cast
  ring

theorem foldedAngle {a b c : Pt} (ha : a ≠ b) (hc : c ≠ b) :
    foldAngle (getAngle a b c) * Real.pi / 180 =
      EuclideanGeometry.angle (planePt a) (planePt b) (planePt c) := by
  obtain ⟨r, hr0, hr, e1, e2⟩ := getAngle_polar a b c
  have hr := hr ha hc
  have hpi := Real.pi_pos
  obtain ⟨g0, g1⟩ := getAngle_range a b c
  set g := getAngle a b c with hg
  have hx : planePt a - planePt b ≠ 0 := fun h => ha (planePt_inj (sub_eq_zero.1 h))
  have hy : planePt c - planePt b ≠ 0 := fun h => hc (planePt_inj (sub_eq_zero.1 h))
  have hN : ‖planePt a - planePt b‖ * ‖planePt c - planePt b‖ = r := by
    have h1 : (‖planePt a - planePt b‖ * ‖planePt c - planePt b‖) ^ 2 = r ^ 2 := by
      rw [mul_pow, planeNorm, planeNorm]
      have h2 : r ^ 2 = ((area2 b a c : ℚ) : ℝ) ^ 2 + ((dot2 a b c : ℚ) : ℝ) ^ 2 := by
        rw [e1, e2]
        have := Real.sin_sq_add_cos_sq (g * Real.pi / 180)
        linear_combination (-r ^ 2) * this
      rw [h2, ← Rat.cast_mul, ← Rat.cast_pow, ← Rat.cast_pow, ← Rat.cast_add, Rat.cast_inj]
      unfold dist2 area2 dot2
      ring
    have h3 := mul_nonneg (norm_nonneg (planePt a - planePt b)) (norm_nonneg (planePt c - planePt b))
    exact (pow_left_inj₀ h3 hr0 two_ne_zero).1 h1
  have hcos : Real.cos (EuclideanGeometry.angle (planePt a) (planePt b) (planePt c)) = Real.cos (g * Real.pi / 180) := by
    have h1 := InnerProductGeometry.cos_angle_mul_norm_mul_norm (planePt a - planePt b) (planePt c - planePt b)
    have h2 : inner ℝ (planePt a - planePt b) (planePt c - planePt b) = ((dot2 a b c : ℚ) : ℝ) := by
      rw [Complex.inner]
      simp only [planePt, dot2, Complex.mul_re, Complex.conj_re, Complex.conj_im, Complex.sub_re, Complex.sub_im]
      push_cast
      ring
    rw [h2, e2, hN] at h1
    have h3 : InnerProductGeometry.angle (planePt a - planePt b) (planePt c - planePt b) =
      EuclideanGeometry.angle (planePt a) (planePt b) (planePt c) := rfl
    rw [h3] at h1
    have : r ≠ 0 := hr.ne'
    exact mul_right_cancel₀ this (h1.trans (mul_comm _ _))
  unfold foldAngle
  refine Real.injOn_cos ?_ ⟨EuclideanGeometry.angle_nonneg _ _ _, EuclideanGeometry.angle_le_pi _ _ _⟩ ?_
  · by_cases h : 180 < g
    · rw [if_pos h]
      constructor
      · have : 0 ≤ 360 - g := by linarith
        positivity
      · rw [div_le_iff₀ (by norm_num)]; nlinarith
    · rw [if_neg h]
      constructor
      · positivity
      · rw [div_le_iff₀ (by norm_num)]; nlinarith
  · rw [hcos]
    by_cases h : 180 < g
    · rw [if_pos h]
      have : (360 - g) * Real.pi / 180 = 2 * Real.pi - g * Real.pi / 180 := by ring
      rw [this, Real.cos_two_pi_sub]
    · rw [if_neg h]

theorem plane_collinear {a b c : Pt} (h : ¬ Spec.Collinear a b c) :
    ¬ _root_.Collinear ℝ ({planePt a, planePt b, planePt c} : Set ℂ) := by
  intro hcol
  apply h
  rw [collinear_iff_of_mem (p₀ := planePt a) (by simp)] at hcol
  obtain ⟨v, hv⟩ := hcol
  obtain ⟨s, hs⟩ := hv (planePt b) (by simp)
  obtain ⟨t, ht⟩ := hv (planePt c) (by simp)
  have s1 := congrArg Complex.re hs
  have s2 := congrArg Complex.im hs
  have t1 := congrArg Complex.re ht
  have t2 := congrArg Complex.im ht
  simp only [planePt, vadd_eq_add, Complex.add_re, Complex.add_im, Complex.real_smul, Complex.mul_re, Complex.mul_im,
    Complex.ofReal_re, Complex.ofReal_im, zero_mul, sub_zero, add_zero] at s1 s2 t1 t2
  unfold Spec.Collinear
  have : (((b.lat - a.lat) * (c.lon - a.lon) : ℚ) : ℝ) = (((c.lat - a.lat) * (b.lon - a.lon) : ℚ) : ℝ) := by
    push_cast
    rw [s1, s2, t1, t2]
    ring
  exact_mod_cast this

theorem angle_side {a b c : Pt} (h : ¬ Spec.Collinear a b c) :
    EuclideanGeometry.angle (planePt a) (planePt c) (planePt b) ≤
      EuclideanGeometry.angle (planePt a) (planePt b) (planePt c) ↔ dist2 a b ≤ dist2 a c := by
  rw [EuclideanGeometry.angle_le_iff_dist_le (plane_collinear h), dist_eq_norm, dist_eq_norm,
    ← pow_le_pow_iff_left₀ (norm_nonneg _) (norm_nonneg _) two_ne_zero, planeNorm, planeNorm, Rat.cast_le]

theorem dist2_comm (a b : Pt) : dist2 a b = dist2 b a := by unfold dist2; ring

/-- **C110.** The side along which `bilinear_delaunay` looks for the second triangle is a longest side of the triangle
(the one opposite to the vertex chosen). -/
theorem longest_side (v0 v1 v2 : Pt) (h : ¬ Spec.Collinear v0 v1 v2) :
    (widest v0 v1 v2 = 0 ∧ dist2 v0 v1 ≤ dist2 v1 v2 ∧ dist2 v0 v2 ≤ dist2 v1 v2) ∨
    (widest v0 v1 v2 = 1 ∧ dist2 v0 v1 ≤ dist2 v0 v2 ∧ dist2 v1 v2 ≤ dist2 v0 v2) ∨
    (widest v0 v1 v2 = 2 ∧ dist2 v0 v2 ≤ dist2 v0 v1 ∧ dist2 v1 v2 ≤ dist2 v0 v1) := by
  have h01 : v0 ≠ v1 := by rintro rfl; exact h (by unfold Spec.Collinear; ring)
  have h02 : v0 ≠ v2 := by rintro rfl; exact h (by unfold Spec.Collinear; ring)
  have h12 : v1 ≠ v2 := by rintro rfl; exact h (by unfold Spec.Collinear; ring)
  have hpi := Real.pi_pos
  have f0 := foldedAngle (a := v2) (b := v0) (c := v1) h02.symm h01.symm
  have f1 := foldedAngle (a := v0) (b := v1) (c := v2) h01 h12.symm
  have hsum := EuclideanGeometry.angle_add_angle_add_angle_eq_pi (p₁ := planePt v0) (p₂ := planePt v1) (planePt v2)
    (fun e => h01 (planePt_inj e.symm))
  have k1 : ¬ Spec.Collinear v1 v2 v0 := fun e => h (by unfold Spec.Collinear at *; linarith)
  have k2 : ¬ Spec.Collinear v2 v0 v1 := fun e => h (by unfold Spec.Collinear at *; linarith)
  have c0 := angle_side h
  have c1 := angle_side k1
  have c2 := angle_side k2
  rw [EuclideanGeometry.angle_comm (planePt v0) (planePt v2) (planePt v1)] at c0
  rw [EuclideanGeometry.angle_comm (planePt v1) (planePt v0) (planePt v2)] at c1
  rw [EuclideanGeometry.angle_comm (planePt v2) (planePt v1) (planePt v0)] at c2
  rw [EuclideanGeometry.angle_comm] at f1
  have d1 := dist2_comm v1 v0
  have d2 := dist2_comm v2 v0
  have d3 := dist2_comm v2 v1
  rw [EuclideanGeometry.angle_comm] at f1
  set A := EuclideanGeometry.angle (planePt v2) (planePt v0) (planePt v1)
  set B := EuclideanGeometry.angle (planePt v0) (planePt v1) (planePt v2)
  set C := EuclideanGeometry.angle (planePt v1) (planePt v2) (planePt v0)
  unfold widest
  generalize foldAngle (getAngle v2 v0 v1) = a0 at f0 ⊢
  generalize foldAngle (getAngle v0 v1 v2) = a1 at f1 ⊢
  have f2 : (180 - a0 - a1) * Real.pi / 180 = C := by
    have : (180 - a0 - a1) * Real.pi / 180 = Real.pi - a0 * Real.pi / 180 - a1 * Real.pi / 180 := by ring
    rw [this, f0, f1]; linarith
  have hk : 0 < Real.pi / 180 := by positivity
  have mono : ∀ x y : ℝ, x ≤ y ↔ x * Real.pi / 180 ≤ y * Real.pi / 180 := by
    intro x y
    rw [mul_div_assoc, mul_div_assoc, mul_le_mul_iff_left₀ hk]
  have hB : 0 ≤ B := EuclideanGeometry.angle_nonneg _ _ _
  have hC : 0 ≤ C := EuclideanGeometry.angle_nonneg _ _ _
  rw [d1] at c1
  rw [d2, d3] at c2
  have n0 : C ≤ A ↔ dist2 v0 v1 ≤ dist2 v1 v2 := by
    have := angle_side (a := v1) (b := v0) (c := v2) (fun e => h (by unfold Spec.Collinear at *; linarith))
    rwa [EuclideanGeometry.angle_comm (planePt v1) (planePt v0) (planePt v2), d1] at this
  have n1 : A ≤ B ↔ dist2 v1 v2 ≤ dist2 v0 v2 := by
    have := angle_side (a := v2) (b := v1) (c := v0) (fun e => h (by unfold Spec.Collinear at *; linarith))
    rwa [EuclideanGeometry.angle_comm (planePt v2) (planePt v1) (planePt v0), d2, d3] at this
  have n2 : B ≤ C ↔ dist2 v0 v2 ≤ dist2 v0 v1 := by
    have := angle_side (a := v0) (b := v2) (c := v1) (fun e => h (by unfold Spec.Collinear at *; linarith))
    rwa [EuclideanGeometry.angle_comm (planePt v0) (planePt v2) (planePt v1)] at this
  unfold pickAngle
  dsimp only
  by_cases h90 : 90 ≤ a0
  · rw [if_pos h90]
    have : Real.pi / 2 ≤ A := by rw [← f0]; rw [mono] at h90; linarith
    exact Or.inl ⟨rfl, n0.1 (by linarith), c2.1 (by linarith)⟩
  · rw [if_neg h90]
    have m1 : a1 ≤ a0 ↔ B ≤ A := by rw [mono, f0, f1]
    have m2 : 180 - a0 - a1 ≤ a0 ↔ C ≤ A := by rw [mono, f0, f2]
    have m3 : 180 - a0 - a1 ≤ a1 ↔ C ≤ B := by rw [mono, f1, f2]
    by_cases hA : a1 ≤ a0 ∧ 180 - a0 - a1 ≤ a0
    · rw [if_pos hA]
      rw [m1, m2] at hA
      exact Or.inl ⟨rfl, n0.1 hA.2, c2.1 hA.1⟩
    · rw [if_neg hA]
      rw [m1, m2] at hA
      by_cases hCB : 180 - a0 - a1 ≤ a1
      · rw [if_pos hCB]
        rw [m3] at hCB
        refine Or.inr (Or.inl ⟨rfl, c0.1 hCB, n1.1 ?_⟩)
        by_contra hlt
        exact hA ⟨by linarith, by linarith⟩
      · rw [if_neg hCB]
        rw [m3] at hCB
        refine Or.inr (Or.inr ⟨rfl, n2.1 (by linarith), c1.1 ?_⟩)
        by_contra hlt
        exact hA ⟨by linarith, by linarith⟩

/-- A side strictly longer than the two others is the one taken. -/
theorem widest_of_longest (v0 v1 v2 : Pt) (h : ¬ Spec.Collinear v0 v1 v2) :
    (dist2 v0 v1 < dist2 v1 v2 → dist2 v0 v2 < dist2 v1 v2 → widest v0 v1 v2 = 0) ∧
    (dist2 v0 v1 < dist2 v0 v2 → dist2 v1 v2 < dist2 v0 v2 → widest v0 v1 v2 = 1) ∧
    (dist2 v0 v2 < dist2 v0 v1 → dist2 v1 v2 < dist2 v0 v1 → widest v0 v1 v2 = 2) := by
  refine ⟨fun a b => ?_, fun a b => ?_, fun a b => ?_⟩ <;>
    rcases longest_side v0 v1 v2 h with ⟨hw, k1, k2⟩ | ⟨hw, k1, k2⟩ | ⟨hw, k1, k2⟩ <;>
    first | exact hw | (exfalso; linarith)

/-! ## Pairs of triangles -/

/-- Partners are mutual. -/
def Mutual (st : List (Option Nat)) : Prop := ∀ a b : Nat, st[a]? = some (some b) → st[b]? = some (some a)

theorem slot_ok {st : List (Option Nat)} {i : Nat} {r : Option Nat} : slot st i = .ok r ↔ st[i]? = some r := by
  unfold slot
  cases h : st[i]? with
  | none => constructor <;> intro e <;> cases e
  | some x => constructor <;> intro e <;> cases e <;> rfl

theorem set_pair {st : List (Option Nat)} {t u : Nat} (ht : st[t]? = some none) (hu : st[u]? = some none) (a : Nat) :
    ((st.set t (some u)).set u (some t))[a]? = if a = u then some (some t) else if a = t then some (some u) else st[a]? := by
  have h1 := (List.getElem?_eq_some_iff.1 ht).1
  have h2 := (List.getElem?_eq_some_iff.1 hu).1
  rw [List.getElem?_set, List.getElem?_set, List.length_set]
  by_cases e1 : u = a
  · subst e1; simp [h2]
  · rw [if_neg e1]
    have e1' : ¬ a = u := fun e => e1 e.symm
    by_cases e2 : t = a
    · subst e2
      rw [if_pos rfl, if_pos h1, if_neg e1', if_pos rfl]
    · have e2' : ¬ a = t := fun e => e2 e.symm
      rw [if_neg e2, if_neg e1', if_neg e2']

theorem pairTri_spec {st st' : List (Option Nat)} {t : Nat} {fav r : Option Nat} (h : pairTri st t fav = .ok (st', r))
    (hm : Mutual st) : st'.length = st.length ∧ Mutual st' ∧ st'[t]? = some r ∧
      (∀ a b : Nat, st[a]? = some (some b) → st'[a]? = some (some b)) ∧
      (∀ a b : Nat, st'[a]? = some (some b) → st[a]? = some (some b) ∨ (a = t ∧ fav = some b) ∨ (b = t ∧ fav = some a)) ∧
      (r = none → ∀ u : Nat, fav = some u → ∃ x, x ≠ t ∧ st'[u]? = some (some x)) := by
  have key : ∀ st1 : List (Option Nat), (do let r ← slot st1 t; (.ok (st1, r) : Py _)) = .ok (st', r) →
      st1 = st' ∧ st'[t]? = some r := by
    intro st1 h1
    cases hs : slot st1 t with
    | error e => rw [hs] at h1; cases h1
    | ok x => rw [hs] at h1; cases h1; exact ⟨rfl, slot_ok.1 hs⟩
  have same : st = st' → st'[t]? = some r → (r = none → ∀ u : Nat, fav = some u → ∃ x, x ≠ t ∧ st[u]? = some (some x)) →
      st'.length = st.length ∧ Mutual st' ∧ st'[t]? = some r ∧
      (∀ a b : Nat, st[a]? = some (some b) → st'[a]? = some (some b)) ∧
      (∀ a b : Nat, st'[a]? = some (some b) → st[a]? = some (some b) ∨ (a = t ∧ fav = some b) ∨ (b = t ∧ fav = some a)) ∧
      (r = none → ∀ u : Nat, fav = some u → ∃ x, x ≠ t ∧ st'[u]? = some (some x)) := by
    rintro rfl hr hn
    exact ⟨rfl, hm, hr, fun _ _ h => h, fun _ _ h => Or.inl h, hn⟩
  unfold pairTri at h
  cases fav with
  | none =>
    obtain ⟨rfl, hr⟩ := key st h
    exact same rfl hr (fun _ u hu => by cases hu)
  | some u =>
    dsimp only [bind, Except.bind] at h
    cases ho : slot st t with
    | error e => rw [ho] at h; cases h
    | ok own =>
      rw [ho] at h
      cases own with
      | some x =>
        dsimp only at h
        cases h
        exact same rfl (slot_ok.1 ho) (fun h => by cases h)
      | none =>
        dsimp only at h
        cases hu : slot st u with
        | error e => rw [hu] at h; cases h
        | ok other =>
          rw [hu] at h
          cases other with
          | some x =>
            dsimp only at h
            cases h
            refine same rfl (slot_ok.1 ho) (fun _ v hv => ?_)
            cases hv
            refine ⟨x, ?_, slot_ok.1 hu⟩
            rintro rfl
            have := hm _ _ (slot_ok.1 hu)
            rw [slot_ok.1 ho] at this
            cases this
          | none =>
            dsimp only at h
            obtain ⟨rfl, hr⟩ := key _ h
            rw [slot_ok] at ho hu
            have hget := set_pair ho hu
            refine ⟨by simp, ?_, hr, ?_, ?_, ?_⟩
            · intro a b hab
              rw [hget] at hab
              rw [hget]
              by_cases e1 : a = u
              · rw [if_pos e1] at hab
                cases hab
                subst e1
                by_cases e2 : t = a
                · rw [if_pos e2, e2]
                · rw [if_neg e2, if_pos rfl]
              · rw [if_neg e1] at hab
                by_cases e2 : a = t
                · rw [if_pos e2] at hab
                  cases hab
                  rw [if_pos rfl, e2]
                · rw [if_neg e2] at hab
                  have hb := hm a b hab
                  rw [if_neg (by rintro rfl; rw [hu] at hb; cases hb), if_neg (by rintro rfl; rw [ho] at hb; cases hb)]
                  exact hb
            · intro a b hab
              rw [hget, if_neg (by rintro rfl; rw [hu] at hab; cases hab), if_neg (by rintro rfl; rw [ho] at hab; cases hab)]
              exact hab
            · intro a b hab
              rw [hget] at hab
              by_cases e1 : a = u
              · rw [if_pos e1] at hab
                cases hab
                exact Or.inr (Or.inr ⟨rfl, by rw [e1]⟩)
              · rw [if_neg e1] at hab
                by_cases e2 : a = t
                · rw [if_pos e2] at hab
                  cases hab
                  exact Or.inr (Or.inl ⟨e2, rfl⟩)
                · rw [if_neg e2] at hab
                  exact Or.inl hab
            · rintro rfl
              rw [hget] at hr
              by_cases e1 : t = u
              · rw [if_pos e1] at hr; cases hr
              · rw [if_neg e1, if_pos rfl] at hr; cases hr

/-- The whole run: one set of pairs explains the rows of all cells. -/
theorem cellLoop_pairs {M : Mesh} {root : Pt → Pt → Pt → Pt → Pt → ℚ × ℚ} {st : List (Option Nat)} {cells : List DCell}
    {rows : List (List (Num × Option Nat))} (h : cellLoop M root st cells = .ok rows) (hm : Mutual st) :
    ∃ P : List (Option Nat), Mutual P ∧ (∀ a b : Nat, st[a]? = some (some b) → P[a]? = some (some b)) ∧
      (∀ a b : Nat, P[a]? = some (some b) → st[a]? = some (some b) ∨
        (∃ T, M.tris[a]? = some T ∧ M.favourite T = some b) ∨ (∃ T, M.tris[b]? = some T ∧ M.favourite T = some a)) ∧
      rows.length = cells.length ∧
      ∀ (i : Nat) (c : DCell) (row : List (Num × Option Nat)), cells[i]? = some c → rows[i]? = some row →
        ∃ T, M.rowOf c = some T ∧
        ((c.tri = none ∨ c.far = true) → row = outRow T) ∧
        ∀ t, c.tri = some t → c.far = false →
          (row = triRow4 M T c ∧ ∀ u : Nat, M.favourite T = some u → ∃ x, x ≠ t ∧ P[u]? = some (some x)) ∨
          ∃ (u : Nat) (U : Tri), P[t]? = some (some u) ∧ M.tris[u]? = some U ∧ quadRow M root T U c = .ok row := by
  induction cells generalizing st rows with
  | nil =>
    cases h
    exact ⟨st, hm, fun _ _ h => h, fun _ _ h => Or.inl h, rfl, fun i c row hc => by cases hc⟩
  | cons c cs ih =>
    unfold cellLoop at h
    dsimp only [bind, Except.bind] at h
    cases hs : cellStep M root st c with
    | error e => rw [hs] at h; cases h
    | ok x =>
      obtain ⟨st', row⟩ := x
      rw [hs] at h
      dsimp only at h
      cases hr : cellLoop M root st' cs with
      | error e => rw [hr] at h; cases h
      | ok rows' =>
        rw [hr] at h
        cases h
        -- the step
        have step : Mutual st' ∧ (∀ a b : Nat, st[a]? = some (some b) → st'[a]? = some (some b)) ∧
            (∀ a b : Nat, st'[a]? = some (some b) → st[a]? = some (some b) ∨
              (∃ T, M.tris[a]? = some T ∧ M.favourite T = some b) ∨ (∃ T, M.tris[b]? = some T ∧ M.favourite T = some a)) ∧
            ∃ T, M.rowOf c = some T ∧ ((c.tri = none ∨ c.far = true) → row = outRow T) ∧
              ∀ t, c.tri = some t → c.far = false →
                (row = triRow4 M T c ∧ ∀ u : Nat, M.favourite T = some u → ∃ x, x ≠ t ∧ st'[u]? = some (some x)) ∨
                ∃ (u : Nat) (U : Tri), st'[t]? = some (some u) ∧ M.tris[u]? = some U ∧ quadRow M root T U c = .ok row := by
          unfold cellStep at hs
          cases hT : M.rowOf c with
          | none => rw [hT] at hs; cases hs
          | some T =>
            rw [hT] at hs
            dsimp only at hs
            cases ht : c.tri with
            | none =>
              rw [ht] at hs
              cases hs
              refine ⟨hm, fun _ _ h => h, fun _ _ h => Or.inl h, T, rfl, fun _ => rfl, fun t ht' => by cases ht'⟩
            | some t =>
              rw [ht] at hs
              dsimp only at hs
              by_cases hf : c.far = true
              · rw [if_pos hf] at hs
                cases hs
                refine ⟨hm, fun _ _ h => h, fun _ _ h => Or.inl h, T, rfl, fun _ => rfl, fun t _ hf' => ?_⟩
                rw [hf] at hf'; cases hf'
              · rw [if_neg hf] at hs
                have hTt : M.tris[t]? = some T := by
                  unfold Mesh.rowOf at hT
                  rw [ht] at hT
                  exact hT
                dsimp only [bind, Except.bind] at hs
                cases hp : pairTri st t (M.favourite T) with
                | error e => rw [hp] at hs; cases hs
                | ok y =>
                  obtain ⟨st1, r⟩ := y
                  rw [hp] at hs
                  dsimp only at hs
                  obtain ⟨-, m1, m2, m3, m4, m6⟩ := pairTri_spec hp hm
                  have m5 : ∀ a b : Nat, st1[a]? = some (some b) → st[a]? = some (some b) ∨
                      (∃ T, M.tris[a]? = some T ∧ M.favourite T = some b) ∨
                      (∃ T, M.tris[b]? = some T ∧ M.favourite T = some a) := by
                    intro a b hab
                    rcases m4 a b hab with h | ⟨rfl, h⟩ | ⟨rfl, h⟩
                    · exact Or.inl h
                    · exact Or.inr (Or.inl ⟨T, hTt, h⟩)
                    · exact Or.inr (Or.inr ⟨T, hTt, h⟩)
                  cases r with
                  | none =>
                    cases hs
                    refine ⟨m1, m3, m5, T, rfl, ?_, fun t' ht' _ => Or.inl ⟨rfl, by cases ht'; exact m6 rfl⟩⟩
                    rintro (h | h)
                    · cases h
                    · exact absurd h hf
                  | some u =>
                    dsimp only at hs
                    cases hU : M.tris[u]? with
                    | none => rw [hU] at hs; cases hs
                    | some U =>
                      rw [hU] at hs
                      dsimp only at hs
                      cases hq : quadRow M root T U c with
                      | error e => rw [hq] at hs; cases hs
                      | ok row' =>
                        rw [hq] at hs
                        cases hs
                        refine ⟨m1, m3, m5, T, rfl, ?_, ?_⟩
                        · rintro (h | h)
                          · cases h
                          · exact absurd h hf
                        · intro t' ht' _
                          cases ht'
                          exact Or.inr ⟨u, U, m2, hU, hq⟩
        obtain ⟨n1, n2, n3, T, n4, n5, n6⟩ := step
        obtain ⟨P, q1, q2, q3, q4, q5⟩ := ih hr n1
        refine ⟨P, q1, fun a b h => q2 a b (n2 a b h), ?_, by simp [q4], ?_⟩
        · intro a b hab
          rcases q3 a b hab with h | h
          · exact n3 a b h
          · exact Or.inr h
        · intro i c' row' hc' hrow'
          cases i with
          | zero =>
            cases hc'
            cases hrow'
            refine ⟨T, n4, n5, fun t ht hf => ?_⟩
            rcases n6 t ht hf with ⟨h, h'⟩ | ⟨u, U, h1, h2⟩
            · refine Or.inl ⟨h, fun u hu => ?_⟩
              obtain ⟨x, hx, hx'⟩ := h' u hu
              exact ⟨x, hx, q2 u x hx'⟩
            · exact Or.inr ⟨u, U, q2 t u h1, h2⟩
          | succ i => exact q5 i c' row' hc' hrow'

end PyG2P
