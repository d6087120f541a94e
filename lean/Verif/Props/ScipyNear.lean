import Verif.Model.ScipyNear
import Verif.Props.TableApply
import Verif.Props.GribInvdist

/-! # C61, C62, C66, C67: nearest neighbour and inverse distance tables, splits -/

namespace PyG2P
open ScipyLib

namespace Spec

/-- What a KD-tree of `n` source points at the given distances may answer when asked for the `k` nearest: `k` different
points with their distances, nearest first, and no other point is nearer than one of them. -/
structure KNearest (dist : Nat → ℚ) (n k : Nat) (row : List (ℚ × Nat)) : Prop where
  len : row.length = k
  real : ∀ p ∈ row, p.2 < n ∧ p.1 = dist p.2
  nodup : (row.map (·.2)).Nodup
  sorted : row.Pairwise fun a b => a.1 ≤ b.1
  nearest : ∀ p ∈ row, ∀ i < n, i ∉ row.map (·.2) → p.1 ≤ dist i

end Spec

/-- The first point is a nearest one. -/
theorem KNearest_head {dist : Nat → ℚ} {n k : Nat} {p : ℚ × Nat} {row : List (ℚ × Nat)}
    (h : Spec.KNearest dist n k (p :: row)) : p.2 < n ∧ p.1 = dist p.2 ∧ ∀ i < n, dist p.2 ≤ dist i := by
  obtain ⟨h1, h2⟩ := h.real p (by simp)
  refine ⟨h1, h2, fun i hi => ?_⟩
  rw [← h2]
  by_cases hm : i ∈ (p :: row).map (·.2)
  · obtain ⟨q, hq, rfl⟩ := List.mem_map.1 hm
    rcases List.mem_cons.1 hq with rfl | hq'
    · exact h2.le
    · have h3 := (List.pairwise_cons.1 h.sorted).1 q hq'
      rw [(h.real q hq).2] at h3; exact h3
  · exact h.nearest p (by simp) i hi hm

theorem nnLoop_ok {step n : Nat} {bound : ℚ} : ∀ (rows : List (ℚ × Nat)) (ix : List Nat),
    nnLoop step n bound rows = .ok ix → ix = rows.map fun p => if p.1 ≤ bound then p.2 else n := by
  intro rows
  induction rows with
  | nil => intro ix h; cases h; rfl
  | cons p rows ih =>
    intro ix h
    obtain ⟨d, k⟩ := p
    rw [nnLoop] at h
    by_cases hs : step = 0
    · rw [if_pos hs] at h; cases h
    · rw [if_neg hs] at h
      obtain ⟨rest, h1, h2⟩ := bind_ok_iff.1 h
      cases h2
      rw [ih rest h1]; rfl

theorem nnLoop_run {step : Nat} (hs : step ≠ 0) (n : Nat) (bound : ℚ) : ∀ rows : List (ℚ × Nat),
    nnLoop step n bound rows = .ok (rows.map fun p => if p.1 ≤ bound then p.2 else n) := by
  intro rows
  induction rows with
  | nil => rfl
  | cons p rows ih =>
    obtain ⟨d, k⟩ := p
    rw [nnLoop, if_neg hs, ih]; rfl

/-- **C61.** When nearest neighbour interpolation of a field succeeds, every cell of the output holds the value of a
source point of minimal distance, this distance being within the bound; or the missing value, every source point being
beyond the bound. -/
theorem scipy_nearest_output {τ : Type} {n : Nat} (tty : Bool) (bound : ℚ) (dist : Nat → τ → ℚ)
    (query : τ → ℚ × Nat) (hq : ∀ t, Spec.KNearest (fun i => dist i t) n 1 [query t]) (grid : List (List τ))
    (v : Arr n) (mv : Num) (out : List Num)
    (h : (nearestPart tty n bound query grid >>= applyPart v mv) = .ok out) :
    out.length = grid.flatten.length ∧ ∀ (j : Nat) t x, grid.flatten[j]? = some t → out[j]? = some x →
      (∃ i : Fin n, (∀ i' < n, dist i t ≤ dist i' t) ∧ dist i t ≤ bound ∧ x = v.data i) ∨
      ((∀ i' < n, bound < dist i' t) ∧ x = mv) := by
  obtain ⟨part, h1, h2⟩ := bind_ok_iff.1 h
  unfold nearestPart at h1
  obtain ⟨ix, h3, h4⟩ := bind_ok_iff.1 h1
  cases h4
  have h5 := nnLoop_ok _ _ h3
  dsimp only [applyPart] at h2
  rw [List.map_snd_zip (by simp only [h5, List.length_map, le_refl])] at h2
  obtain ⟨h6, h7⟩ := C60_scipy_nearest v mv ix out h2
  refine ⟨by rw [h6, h5, List.length_map, List.length_map], fun j t x ht hx => ?_⟩
  obtain ⟨hn, hd, hmin⟩ := KNearest_head (hq t)
  have hix : ix[j]? = some (if (query t).1 ≤ bound then (query t).2 else n) := by
    rw [h5, List.getElem?_map, List.getElem?_map, ht]; rfl
  obtain ⟨a, b, -⟩ := h7 j _ x hix hx
  split_ifs at a b with hb
  · left
    exact ⟨⟨(query t).2, hn⟩, hmin, by rw [← hd]; exact hb, a hn⟩
  · right
    refine ⟨fun i' hi' => lt_of_lt_of_le (not_le.1 hb) ?_, b rfl⟩
    rw [hd]; exact hmin i' hi'

/-- C66 for nearest neighbour: the table is created for every number of cells except 1 to 249, where the progress
counter divides by zero. -/
theorem scipy_nearest_created {τ : Type} (tty : Bool) (n : Nat) (bound : ℚ) (query : τ → ℚ × Nat)
    (grid : List (List τ)) :
    (grid.flatten.length = 0 ∨ 250 ≤ grid.flatten.length → ∃ p, nearestPart tty n bound query grid = .ok p) ∧
    (0 < grid.flatten.length → grid.flatten.length < 250 →
      nearestPart tty n bound query grid = .error .zeroDivision) := by
  unfold nearestPart buildNN
  constructor
  · intro h
    rcases h with h | h
    · have : grid.flatten = [] := List.length_eq_zero_iff.1 h
      rw [this]
      exact ⟨_, rfl⟩
    · have hs : GribLib.progressStep tty (grid.flatten.map query).length ≠ 0 := by
        rw [List.length_map]
        unfold GribLib.progressStep
        have : 0 < grid.flatten.length / 250 := Nat.div_pos h (by norm_num)
        split_ifs <;> omega
      dsimp only
      rw [nnLoop_run hs]
      exact ⟨_, rfl⟩
  · intro h1 h2
    have hs : GribLib.progressStep tty (grid.flatten.map query).length = 0 := by
      rw [List.length_map]
      unfold GribLib.progressStep
      rw [Nat.div_eq_of_lt h2]; split_ifs <;> rfl
    dsimp only
    rw [hs]
    cases hg : grid.flatten with
    | nil => rw [hg] at h1; simp at h1
    | cons t ts =>
      rw [List.map_cons, nnLoop, if_pos rfl]; rfl

/-! ## Inverse distance -/

theorem invdistRow_cons (n : Nat) (bound : ℚ) (p : ℚ × Nat) (row : List (ℚ × Nat)) :
    invdistRow n bound (p :: row) =
      if p.1 ≤ 1 / 10000000000 then (p :: row).mapIdx fun j p => (if j = 0 then 1 else 0, p.2)
      else if p.1 ≤ bound then
        (p :: row).map fun q => (.fin (1 / q.1 ^ 2) / .fin (((p :: row).map fun p => 1 / p.1 ^ 2).sum), q.2)
      else (p :: row).map fun _ => (.nan, n) := rfl

theorem py_bind_ok {α β : Type} (a : α) (f : α → Py β) : ((Except.ok a : Py α) >>= f) = f a := rfl

theorem sum_map_nonneg {α : Type} (f : α → ℚ) : ∀ l : List α, (∀ a ∈ l, 0 ≤ f a) → 0 ≤ (l.map f).sum := by
  intro l h
  exact List.sum_nonneg (by intro x hx; obtain ⟨a, ha, rfl⟩ := List.mem_map.1 hx; exact h a ha)

/-- Weights of a row as the specification wants them: proportional to the inverse square of the distance. -/
def Spec.invSquare (row : List (ℚ × Nat)) (p : ℚ × Nat) : ℚ := (1 / p.1 ^ 2) / (row.map fun q => 1 / q.1 ^ 2).sum

theorem invSquare_facts (row : List (ℚ × Nat)) (hne : row ≠ []) (hpos : ∀ p ∈ row, 0 < p.1) :
    (row.map (Spec.invSquare row)).sum = 1 ∧ (∀ p ∈ row, 0 < Spec.invSquare row p) ∧
    (∀ p ∈ row, ∀ q ∈ row, p.1 ≤ q.1 → Spec.invSquare row q ≤ Spec.invSquare row p) ∧
    (row.map fun q => 1 / q.1 ^ 2).sum ≠ 0 := by
  have hp : ∀ p ∈ row, 0 < 1 / p.1 ^ 2 := fun p h => by have := hpos p h; positivity
  have hs : 0 < (row.map fun q => 1 / q.1 ^ 2).sum := by
    cases row with
    | nil => exact absurd rfl hne
    | cons p row =>
      rw [List.map_cons, List.sum_cons]
      have h1 := hp p (by simp)
      have h2 := sum_map_nonneg (fun q : ℚ × Nat => 1 / q.1 ^ 2) row (fun q hq => (hp q (by simp [hq])).le)
      linarith
  refine ⟨?_, fun p h => div_pos (hp p h) hs, fun p h q h' hle => ?_, hs.ne'⟩
  · have : row.map (Spec.invSquare row) = row.map fun q => (1 / q.1 ^ 2) * (1 / (row.map fun q => 1 / q.1 ^ 2).sum) :=
      List.map_congr_left fun q _ => by rw [Spec.invSquare, div_eq_mul_one_div]
    rw [this, List.sum_map_mul_right]
    field_simp
  · unfold Spec.invSquare
    apply div_le_div_of_nonneg_right _ hs.le
    have h1 := hpos p h
    exact one_div_le_one_div_of_le (by positivity) (pow_le_pow_left₀ h1.le hle 2)

/-- **C62** (the part that holds), the table. For a cell whose nearest neighbour is within the bound: the row lists the
neighbours of the cell; if the nearest one is at distance at most 1e-10 it has weight one and the others zero, otherwise
every weight is positive, proportional to the inverse square of the distance, and they sum to one.
What is missing: cells beyond the bound (`invdist_beyond_bound`). -/
theorem scipy_invdist_row_partial (n : Nat) (bound : ℚ) (dist : Nat → ℚ) (k : Nat) (row : List (ℚ × Nat))
    (hk : Spec.KNearest dist n (k + 1) row) :
    ((row.headD (0, 0)).1 ≤ 1 / 10000000000 →
      invdistRow n bound row = (List.zip (Num.fin 1 :: List.replicate k (Num.fin 0)) (row.map (·.2)))) ∧
    (1 / 10000000000 < (row.headD (0, 0)).1 → (row.headD (0, 0)).1 ≤ bound →
      invdistRow n bound row = (row.map fun p => (Num.fin (Spec.invSquare row p), p.2)) ∧
      (row.map (Spec.invSquare row)).sum = 1 ∧ (∀ p ∈ row, 0 < Spec.invSquare row p) ∧
      (∀ p ∈ row, ∀ q ∈ row, p.1 ≤ q.1 → Spec.invSquare row q ≤ Spec.invSquare row p)) := by
  cases row with
  | nil => have := hk.len; simp at this
  | cons p row =>
    have hlen : row.length = k := by have := hk.len; simpa using this
    simp only [List.headD_cons]
    constructor
    · intro h
      rw [invdistRow_cons, if_pos h, List.mapIdx_cons, List.map_cons, List.zip_cons_cons, if_pos rfl]
      congr 1
      subst hlen
      clear hk
      induction row with
      | nil => rfl
      | cons q row ih =>
        rw [List.mapIdx_cons, List.map_cons, List.length_cons, List.replicate_succ, List.zip_cons_cons, ← ih]
        rfl
    · intro h1 h2
      have hpos : ∀ q ∈ p :: row, 0 < q.1 := by
        intro q hq
        have h3 : p.1 ≤ q.1 := by
          rcases List.mem_cons.1 hq with rfl | hq
          · exact le_refl _
          · exact (List.pairwise_cons.1 hk.sorted).1 q hq
        have : (0 : ℚ) < 1 / 10000000000 := by norm_num
        linarith
      obtain ⟨a, b, c, d⟩ := invSquare_facts (p :: row) (by simp) hpos
      refine ⟨?_, a, b, c⟩
      rw [invdistRow_cons, if_neg (not_le.2 h1), if_pos h2]
      apply List.map_congr_left
      intro q _
      rw [Num.fin_div_of_ne _ d]; rfl

theorem sum_fin (l : List ℚ) : (l.map Num.fin).sum = Num.fin l.sum := by
  induction l with
  | nil => rfl
  | cons x l ih => rw [List.map_cons, List.sum_cons, ih, List.sum_cons, Num.fin_add]

theorem wsum_bounds {α : Type} (w x : α → ℚ) (lo hi : ℚ) : ∀ l : List α, (∀ a ∈ l, 0 ≤ w a) →
    (∀ a ∈ l, lo ≤ x a ∧ x a ≤ hi) →
    (l.map w).sum * lo ≤ (l.map fun a => w a * x a).sum ∧ (l.map fun a => w a * x a).sum ≤ (l.map w).sum * hi := by
  intro l
  induction l with
  | nil => intro _ _; simp
  | cons a l ih =>
    intro h1 h2
    obtain ⟨i1, i2⟩ := ih (fun b hb => h1 b (by simp [hb])) (fun b hb => h2 b (by simp [hb]))
    have := h1 a (by simp)
    obtain ⟨x1, x2⟩ := h2 a (by simp)
    simp only [List.map_cons, List.sum_cons]
    have j1 := mul_le_mul_of_nonneg_left x1 this
    have j2 := mul_le_mul_of_nonneg_left x2 this
    constructor <;> nlinarith

/-- **C62** (the part that holds), the output: a field of finite values interpolated by inverse distance. A cell whose
nearest source point is at distance at most 1e-10 gets exactly the value of such a point; any other cell with a source
point within the bound gets a value between the least and the greatest value of its neighbours. -/
theorem scipy_invdist_output_partial {τ : Type} {n : Nat} (k : Nat) (bound : ℚ) (dist : Nat → τ → ℚ)
    (query : τ → List (ℚ × Nat)) (hq : ∀ t, Spec.KNearest (fun i => dist i t) n (k + 1) (query t))
    (grid : List (List τ)) (val : Nat → ℚ) (v : Arr n) (hv : ∀ i : Fin n, v.data i = .fin (val i)) (mv : Num)
    (out : List Num) (h : (invdistPart n (k + 1) bound query grid >>= applyPart v mv) = .ok out) :
    out.length = grid.flatten.length ∧ ∀ (j : Nat) t x, grid.flatten[j]? = some t → out[j]? = some x →
      (∀ i < n, dist i t ≤ 1 / 10000000000 →
        ∃ i' : Fin n, (∀ i'' < n, dist i' t ≤ dist i'' t) ∧ x = v.data i') ∧
      ((∃ i < n, dist i t ≤ bound) → ∀ lo hi : ℚ, (∀ p ∈ query t, lo ≤ val p.2 ∧ val p.2 ≤ hi) →
        ∃ y : ℚ, x = .fin y ∧ lo ≤ y ∧ y ≤ hi) := by
  obtain ⟨part, h1, h2⟩ := bind_ok_iff.1 h
  unfold invdistPart buildInvdist at h1
  obtain ⟨rows, h3, h4⟩ := bind_ok_iff.1 h1
  cases h4
  split_ifs at h3 with hn
  cases h3
  dsimp only [applyPart] at h2
  obtain ⟨h5, h6⟩ := C60_scipy_weighted v mv _ out h2
  refine ⟨by rw [h5, List.length_map, List.length_map, List.length_map], fun j t x ht hx => ?_⟩
  obtain ⟨hsum, -, -⟩ := h6 j ((invdistRow n bound (query t)).map fun p => (p.2, p.1)) x
    (by simp only [List.getElem?_map, ht, Option.map_some]) hx
  rw [List.map_map] at hsum
  have hK := hq t
  obtain ⟨hrow1, hrow2⟩ := scipy_invdist_row_partial n bound _ k (query t) hK
  have hvalat : ∀ p ∈ query t, Spec.valueAt v mv p.2 = .fin (val p.2) := by
    intro p hp
    obtain ⟨hlt, -⟩ := hK.real p hp
    unfold Spec.valueAt
    rw [dif_pos hlt, hv]
  cases hrow : query t with
  | nil => have := hK.len; rw [hrow] at this; simp at this
  | cons p row =>
    have hK' := hK
    rw [hrow] at hK'
    obtain ⟨hp1, hp2, hmin⟩ := KNearest_head hK'
    rw [hrow, List.headD_cons] at hrow1 hrow2
    rw [hrow] at hsum hvalat
    have hlen : row.length = k := by have := hK'.len; simpa using this
    -- exact hit
    have hit : p.1 ≤ 1 / 10000000000 → x = .fin (val p.2) := by
      intro hle
      rw [hsum, hrow1 hle, List.map_cons, List.zip_cons_cons, List.map_cons, List.sum_cons]
      dsimp only [Function.comp]
      rw [hvalat p (by simp)]
      have hz : ∀ l : List (ℚ × Nat), (∀ q ∈ l, Spec.valueAt v mv q.2 = .fin (val q.2)) →
          ((List.zip (List.replicate l.length (Num.fin 0)) (l.map (·.2))).map
            ((fun p : Nat × Num => p.2 * Spec.valueAt v mv p.1) ∘ fun p : Num × Nat => (p.2, p.1))).sum = .fin 0 := by
        intro l
        induction l with
        | nil => intro _; rfl
        | cons q l ih =>
          intro hl
          rw [List.length_cons, List.replicate_succ, List.map_cons, List.zip_cons_cons, List.map_cons, List.sum_cons,
            ih (fun q' hq' => hl q' (by simp [hq']))]
          dsimp only [Function.comp]
          rw [hl q (by simp)]; simp
      rw [← hlen, hz row (fun q hq' => hvalat q (by simp [hq']))]
      simp
    have near : 1 / 10000000000 < p.1 → p.1 ≤ bound →
        x = .fin ((p :: row).map fun q => Spec.invSquare (p :: row) q * val q.2).sum := by
      intro a b
      rw [hsum, (hrow2 a b).1, List.map_map, ← sum_fin, List.map_map]
      congr 1
      apply List.map_congr_left
      intro q hq'
      dsimp only [Function.comp]
      rw [hvalat q hq', Num.fin_mul]
    constructor
    · intro i hi hd
      refine ⟨⟨p.2, hp1⟩, hmin, ?_⟩
      rw [hv]
      exact hit (by rw [hp2]; exact le_trans (hmin i hi) hd)
    · rintro ⟨i, hi, hd⟩ lo hi' hb
      have hpb : p.1 ≤ bound := by rw [hp2]; exact le_trans (hmin i hi) hd
      rcases le_or_gt p.1 (1 / 10000000000) with hle | hgt
      · exact ⟨_, hit hle, (hb p (by simp)).1, (hb p (by simp)).2⟩
      · obtain ⟨-, s1, s2, -⟩ := hrow2 hgt hpb
        refine ⟨_, near hgt hpb, ?_⟩
        have := wsum_bounds (Spec.invSquare (p :: row)) (fun q => val q.2) lo hi' (p :: row)
          (fun q hq' => (s2 q hq').le) hb
        rw [s1] at this
        simpa using this

/-- C62 fails beyond the bound, for every cell and field: the output is not the missing value but a value that is
not finite (the stored weights are not finite, and weigh the missing value). -/
theorem invdist_beyond_bound {τ : Type} {n : Nat} (k : Nat) (bound : ℚ) (dist : Nat → τ → ℚ)
    (query : τ → List (ℚ × Nat)) (hq : ∀ t, Spec.KNearest (fun i => dist i t) n (k + 1) (query t))
    (grid : List (List τ)) (v : Arr n) (mv : Num)
    (out : List Num) (h : (invdistPart n (k + 1) bound query grid >>= applyPart v mv) = .ok out)
    (j : Nat) (t : τ) (ht : grid.flatten[j]? = some t) (hb : ∀ i < n, bound < dist i t)
    (h0 : ∀ i < n, 1 / 10000000000 < dist i t) : out[j]? = some .nan := by
  obtain ⟨part, h1, h2⟩ := bind_ok_iff.1 h
  unfold invdistPart buildInvdist at h1
  obtain ⟨rows, h3, h4⟩ := bind_ok_iff.1 h1
  cases h4
  split_ifs at h3 with hn
  cases h3
  dsimp only [applyPart] at h2
  obtain ⟨h5, h6⟩ := C60_scipy_weighted v mv _ out h2
  have hj : j < out.length := by
    rw [h5]; simp only [List.length_map]
    exact (List.getElem?_eq_some_iff.1 ht).1
  obtain ⟨x, hx⟩ : ∃ x, out[j]? = some x := ⟨_, List.getElem?_eq_getElem hj⟩
  rw [hx]
  obtain ⟨hsum, -, -⟩ := h6 j ((invdistRow n bound (query t)).map fun p => (p.2, p.1)) x
    (by simp only [List.getElem?_map, ht, Option.map_some]) hx
  have hK := hq t
  cases hrow : query t with
  | nil => have := hK.len; rw [hrow] at this; simp at this
  | cons p row =>
    rw [hrow] at hK hsum
    obtain ⟨hp1, hp2, hmin⟩ := KNearest_head hK
    have : invdistRow n bound (p :: row) = (p :: row).map fun _ => (Num.nan, n) := by
      rw [invdistRow_cons, if_neg (not_le.2 (hp2 ▸ h0 _ hp1)), if_neg (not_le.2 (hp2 ▸ hb _ hp1))]
    rw [hsum, this]
    simp

/-- C66 for inverse distance: the table is created for every number of cells; it is not when the source has fewer
points than neighbours are asked for. -/
theorem scipy_invdist_created {τ : Type} (n nnear : Nat) (bound : ℚ) (query : τ → List (ℚ × Nat)) (grid : List (List τ)) :
    (nnear ≤ n → ∃ p, invdistPart n nnear bound query grid = .ok p) ∧
    (n < nnear → grid.flatten ≠ [] → invdistPart n nnear bound query grid = .error .indexError) := by
  unfold invdistPart buildInvdist
  constructor
  · intro h
    rw [if_neg (fun hh => absurd hh.1 (by omega))]
    exact ⟨_, rfl⟩
  · intro h hne
    rw [if_pos ⟨h, by simpa using hne⟩]; rfl

/-! ## Splits -/

theorem splitLoop_cells {τ W : Type} (nnear size : Nat) (f : List (List τ) → Py (ScipyLib.Part W)) (g : τ → List (W × Nat))
    (hg : ∀ t, (g t).length = nnear) (grid : List (List τ))
    (hf : ∀ i, f ((grid.drop i).take size) = .ok (.table (((grid.drop i).take size).flatten.map g))) :
    ∀ (c i : Nat), splitLoop nnear size f grid ((List.range c).map fun j => (i + j) * size) =
      .ok ((((grid.drop (i * size)).take (c * size)).flatten).map g) := by
  intro c
  induction c with
  | zero => intro i; simp [splitLoop]
  | succ c ih =>
    intro i
    have hr : (List.range (c + 1)).map (fun j => (i + j) * size) =
        i * size :: (List.range c).map fun j => (i + 1 + j) * size := by
      rw [List.range_succ_eq_map, List.map_cons, List.map_map]
      refine congrArg₂ _ (by simp) (List.map_congr_left fun j _ => ?_)
      simp only [Function.comp, Nat.succ_eq_add_one]
      ring
    have ha : assign nnear ((grid.drop (i * size)).take size).flatten.length
        (.table (((grid.drop (i * size)).take size).flatten.map g)) =
          .ok (((grid.drop (i * size)).take size).flatten.map g) := by
      unfold assign
      dsimp only
      rw [if_pos]
      refine ⟨by rw [List.length_map], fun r hr => ?_⟩
      obtain ⟨t, -, rfl⟩ := List.mem_map.1 hr
      exact hg t
    rw [hr, splitLoop, hf, py_bind_ok, ha, py_bind_ok, ih, py_bind_ok, ← List.map_append,
      ← List.flatten_append]
    congr 3
    have h1 : (i + 1) * size = i * size + size := by ring
    have h2 : (c + 1) * size = size + c * size := by ring
    rw [h1, h2, ← List.drop_drop, List.take_add]

/-- **C67** (the part that holds): if the weights of a cell depend on this cell alone, computing them in `k` pieces, for
any number of pieces from 1 to the number of rows of the target, gives the table computed in one piece.
What is missing: nearest neighbour (`splits_nearest_fail`), more pieces than rows (`splits_too_many`), and the CDD modes
(see `Verif.Props.ScipyCdd`). -/
theorem splits_cellwise_partial {τ W : Type} (nnear k : Nat) (f : List (List τ) → Py (ScipyLib.Part W)) (g : τ → List (W × Nat))
    (hg : ∀ t, (g t).length = nnear) (grid : List (List τ)) (hk : 0 < k) (hkr : k ≤ grid.length)
    (hf : ∀ block, block.flatten ⊆ grid.flatten → f block = .ok (.table (block.flatten.map g))) :
    interpolate nnear (some k) f grid = interpolate nnear none f grid := by
  unfold interpolate
  dsimp only
  have hdiv : 0 < grid.length / k := Nat.div_pos hkr hk
  rw [if_neg (by omega), if_neg (by omega)]
  have hsub : ∀ i, ((grid.drop i).take (grid.length / k)).flatten ⊆ grid.flatten := by
    intro i t ht
    obtain ⟨l, hl, htl⟩ := List.mem_flatten.1 ht
    exact List.mem_flatten.2 ⟨l, List.mem_of_mem_drop (List.mem_of_mem_take hl), htl⟩
  have h := splitLoop_cells nnear (grid.length / k) f g hg grid (fun i => hf _ (hsub i))
    ((grid.length + grid.length / k - 1) / (grid.length / k)) 0
  simp only [Nat.zero_add, Nat.zero_mul, List.drop_zero] at h
  rw [h, hf grid (fun _ h => h), py_bind_ok]
  congr 4
  apply List.take_of_length_le
  set s := grid.length / k
  have h1 := Nat.div_add_mod (grid.length + s - 1) s
  have h2 := Nat.mod_lt (grid.length + s - 1) hdiv
  have h3 : (grid.length + s - 1) / s * s = s * ((grid.length + s - 1) / s) := Nat.mul_comm _ _
  omega

theorem mapM_each {α β : Type} (f : α → Py β) : ∀ (l : List α) (out : List β), l.mapM f = .ok out →
    out.length = l.length ∧ ∀ b ∈ out, ∃ a, f a = .ok b := by
  intro l
  induction l with
  | nil =>
    intro out h
    rw [List.mapM_nil] at h
    rw [← Except.ok.inj h]
    exact ⟨rfl, fun b hb => absurd hb (by simp)⟩
  | cons a l ih =>
    intro out h
    rw [List.mapM_cons] at h
    obtain ⟨b, hb, h⟩ := bind_ok_iff.1 h
    obtain ⟨bs, hbs, h⟩ := bind_ok_iff.1 h
    rw [← Except.ok.inj h]
    obtain ⟨h1, h2⟩ := ih bs hbs
    refine ⟨by rw [List.length_cons, List.length_cons, h1], fun b' hb' => ?_⟩
    rcases List.mem_cons.1 hb' with rfl | hb'
    · exact ⟨a, hb⟩
    · exact h2 b' hb'

/-- The loop over the pieces, for a table whose rows are computed one by one. -/
theorem splitLoop_each {τ W : Type} (nnear size : Nat) (f : List (List τ) → Py (ScipyLib.Part W))
    (g : τ → Py (List (W × Nat))) (hg : ∀ t r, g t = .ok r → r.length = nnear) (grid : List (List τ)) :
    ∀ (c i : Nat), (∀ j, j < c → f ((grid.drop ((i + j) * size)).take size) =
        (((grid.drop ((i + j) * size)).take size).flatten.mapM g).map .table) →
      splitLoop nnear size f grid ((List.range c).map fun j => (i + j) * size) =
        ((grid.drop (i * size)).take (c * size)).flatten.mapM g := by
  intro c
  induction c with
  | zero => intro i _; simp [splitLoop]; rfl
  | succ c ih =>
    intro i hf
    have hr : (List.range (c + 1)).map (fun j => (i + j) * size) =
        i * size :: (List.range c).map fun j => (i + 1 + j) * size := by
      rw [List.range_succ_eq_map, List.map_cons, List.map_map]
      refine congrArg₂ _ (by simp) (List.map_congr_left fun j _ => ?_)
      simp only [Function.comp, Nat.succ_eq_add_one]
      ring
    have h0 := hf 0 (by omega)
    rw [Nat.add_zero] at h0
    have ih' := ih (i + 1) fun j hj => by
      have := hf (j + 1) (by omega)
      rwa [show i + (j + 1) = i + 1 + j by ring] at this
    have h1 : (grid.drop (i * size)).take ((c + 1) * size) =
        (grid.drop (i * size)).take size ++ (grid.drop ((i + 1) * size)).take (c * size) := by
      rw [show (c + 1) * size = size + c * size by ring, show (i + 1) * size = i * size + size by ring,
        ← List.drop_drop, List.take_add]
    rw [hr, splitLoop, h0, h1, List.flatten_append, List.mapM_append]
    cases hm : ((grid.drop (i * size)).take size).flatten.mapM g with
    | error e => rfl
    | ok rows =>
      have ha : assign nnear ((grid.drop (i * size)).take size).flatten.length (.table rows) = .ok rows := by
        unfold assign
        dsimp only
        rw [if_pos]
        obtain ⟨hl, hget⟩ := mapM_each _ _ _ hm
        refine ⟨hl, fun r hr => ?_⟩
        obtain ⟨t, ht⟩ := hget r hr
        exact hg t r ht
      show (assign nnear ((grid.drop (i * size)).take size).flatten.length (.table rows) >>= fun rows =>
        splitLoop nnear size f grid ((List.range c).map fun j => (i + 1 + j) * size) >>= fun rest =>
          Except.ok (rows ++ rest)) = _
      rw [ha, py_bind_ok, ih']
      rfl

/-- **C67**: if the rows of the table are computed one by one, and every piece is computed, the table made in `k` pieces is the
one made in one piece; so is the error, if a row has one. -/
theorem splits_each {τ W : Type} (nnear k : Nat) (f : List (List τ) → Py (ScipyLib.Part W))
    (g : τ → Py (List (W × Nat))) (hg : ∀ t r, g t = .ok r → r.length = nnear) (grid : List (List τ))
    (hk : 0 < k) (hkr : k ≤ grid.length)
    (hf : ∀ j, j * (grid.length / k) < grid.length → f ((grid.drop (j * (grid.length / k))).take (grid.length / k)) =
      (((grid.drop (j * (grid.length / k))).take (grid.length / k)).flatten.mapM g).map .table)
    (h0 : f grid = (grid.flatten.mapM g).map .table) :
    interpolate nnear (some k) f grid = interpolate nnear none f grid := by
  unfold interpolate
  dsimp only
  have hdiv : 0 < grid.length / k := Nat.div_pos hkr hk
  rw [if_neg (by omega), if_neg (by omega), h0]
  set s := grid.length / k
  have h1 := Nat.div_add_mod (grid.length + s - 1) s
  have h2 := Nat.mod_lt (grid.length + s - 1) hdiv
  have h3 : (grid.length + s - 1) / s * s = s * ((grid.length + s - 1) / s) := Nat.mul_comm _ _
  have h := splitLoop_each nnear s f g hg grid ((grid.length + s - 1) / s) 0 fun j hj => by
    rw [Nat.zero_add]
    refine hf j ?_
    have h4 : (j + 1) * s ≤ (grid.length + s - 1) / s * s := Nat.mul_le_mul_right _ hj
    have h5 : (j + 1) * s = j * s + s := by ring
    omega
  simp only [Nat.zero_add, Nat.zero_mul, List.drop_zero] at h
  rw [h, List.take_of_length_le (by omega)]
  cases grid.flatten.mapM g <;> rfl

/-- C67 for inverse distance. -/
theorem splits_invdist_partial {τ : Type} (n nnear k : Nat) (bound : ℚ) (query : τ → List (ℚ × Nat))
    (hq : ∀ t, (query t).length = nnear) (hn : nnear ≤ n) (grid : List (List τ)) (hk : 0 < k) (hkr : k ≤ grid.length) :
    interpolate nnear (some k) (invdistPart n nnear bound query) grid =
      interpolate nnear none (invdistPart n nnear bound query) grid := by
  refine splits_cellwise_partial nnear k _ (fun t => invdistRow n bound (query t)) (fun t => ?_) grid hk hkr
    (fun block _ => ?_)
  · unfold invdistRow
    dsimp only
    split_ifs <;> simp [hq]
  · unfold invdistPart buildInvdist
    rw [if_neg (fun hh => absurd hh.1 (by omega)), py_bind_ok, List.map_map]
    rfl

/-- C67 fails with nearest neighbour: whatever the target and the number of pieces, the table is never created (the
weights have no second dimension), although it is in one piece as soon as the target has 250 cells. -/
theorem splits_nearest_fail {τ : Type} (tty : Bool) (n k : Nat) (bound : ℚ) (query : τ → ℚ × Nat)
    (grid : List (List τ)) (hr : ∀ r ∈ grid, r ≠ []) : ∃ e, (e = .valueError ∨ e = .zeroDivision) ∧
    interpolate 1 (some k) (nearestPart tty n bound query) grid = .error e := by
  unfold interpolate
  dsimp only
  split_ifs with h1 h2
  · exact ⟨_, .inr rfl, rfl⟩
  · exact ⟨_, .inl rfl, rfl⟩
  set s := grid.length / k with hs
  have hspos : 0 < s := Nat.pos_of_ne_zero h2
  have hlen : 0 < grid.length := by
    rcases Nat.eq_zero_or_pos grid.length with h | h
    · rw [h] at hs; simp at hs; omega
    · exact h
  have hcnt : (grid.length + s - 1) / s = (grid.length + s - 1) / s - 1 + 1 := by
    have : 0 < (grid.length + s - 1) / s := Nat.div_pos (by omega) hspos
    omega
  rw [hcnt, List.range_succ_eq_map, List.map_cons, splitLoop, Nat.zero_mul, List.drop_zero]
  set block := grid.take s with hblock
  have hcells : 0 < block.flatten.length := by
    cases hg : grid with
    | nil => rw [hg] at hlen; simp at hlen
    | cons r rs =>
      have hsx : s = (s - 1) + 1 := by omega
      rw [hblock, hg, hsx, List.take_succ_cons, List.flatten_cons, List.length_append]
      have : r ≠ [] := hr r (by rw [hg]; simp)
      have := List.length_pos_iff.2 this
      omega
  obtain ⟨c1, c2⟩ := scipy_nearest_created tty n bound query block
  rcases Nat.lt_or_ge block.flatten.length 250 with hlt | hge
  · rw [c2 hcells hlt]; exact ⟨_, .inr rfl, rfl⟩
  · obtain ⟨p, hp⟩ := c1 (Or.inr hge)
    rw [hp]
    unfold nearestPart at hp
    obtain ⟨ix, h3, h4⟩ := bind_ok_iff.1 hp
    cases h4
    have hix := nnLoop_ok _ _ h3
    rw [py_bind_ok]
    have hl : (((block.flatten.map query).map fun p => Num.fin p.1).zip ix).length = block.flatten.length := by
      simp only [hix, List.length_zip, List.length_map, min_self]
    generalize hz : ((block.flatten.map query).map fun p => Num.fin p.1).zip ix = l at hl
    have : assign 1 block.flatten.length (.flat l) = .error .valueError := by
      unfold assign
      dsimp only
      rw [if_neg (by omega)]
      match l, hl with
      | [], _ => rfl
      | [x], hl => simp only [List.length_singleton] at hl; omega
      | x :: y :: l, _ => rfl
    rw [this]
    exact ⟨_, .inl rfl, rfl⟩

/-- C67 fails when there are more pieces than rows, for every method: `ValueError`. -/
theorem splits_too_many {τ W : Type} (nnear k : Nat) (f : List (List τ) → Py (ScipyLib.Part W)) (grid : List (List τ))
    (h : grid.length < k) : interpolate nnear (some k) f grid = .error .valueError := by
  unfold interpolate
  dsimp only
  rw [if_neg (by omega), if_pos (Nat.div_eq_of_lt h)]

/-! ## Non-vacuity -/

/-- Three source points on a line at 0, 3, 10, and targets at integer positions. -/
def Demo.lineDist (i : Nat) (t : ℚ) : ℚ := |t - (if i = 0 then 0 else if i = 1 then 3 else 10)|

def Demo.lineQuery (t : ℚ) : List (ℚ × Nat) :=
  if t ≤ 3 / 2 then [(Demo.lineDist 0 t, 0), (Demo.lineDist 1 t, 1)]
  else if t ≤ 5 then [(Demo.lineDist 1 t, 1), (Demo.lineDist 0 t, 0)]
  else if t ≤ 13 / 2 then [(Demo.lineDist 1 t, 1), (Demo.lineDist 2 t, 2)]
  else [(Demo.lineDist 2 t, 2), (Demo.lineDist 1 t, 1)]

example : Spec.KNearest (fun i => Demo.lineDist i 1) 3 2 (Demo.lineQuery 1) := by
  constructor
  · decide +kernel
  · decide +kernel
  · decide +kernel
  · decide +kernel
  · have : ∀ p ∈ Demo.lineQuery 1, ∀ i : Fin 3, i.val ∉ (Demo.lineQuery 1).map (·.2) → p.1 ≤ Demo.lineDist i 1 := by
      decide +kernel
    exact fun p hp i hi => this p hp ⟨i, hi⟩

/-- Four cells: a hit, a weighted cell, another, and one beyond the bound (with one and with two pieces). -/
example : invdistPart 3 2 3 Demo.lineQuery [[3, 1], [8, 20]] =
      .ok (.table [[(.fin 1, 1), (.fin 0, 0)], [(.fin (4/5), 0), (.fin (1/5), 1)],
        [(.fin (25/29), 2), (.fin (4/29), 1)], [(.nan, 3), (.nan, 3)]]) ∧
    interpolate 2 (some 2) (invdistPart 3 2 3 Demo.lineQuery) [[3, 1], [8, 20]] =
      interpolate 2 none (invdistPart 3 2 3 Demo.lineQuery) [[3, 1], [8, 20]] := by
  decide +kernel

example : (invdistPart 3 2 3 Demo.lineQuery [[3, 1], [8, 20]] >>=
      applyPart (⟨fun i => .fin (10 * i), none⟩ : Arr 3) (.fin (-9))) =
    .ok [.fin 10, .fin 2, .fin (540/29), .nan] := by decide +kernel

/-- Nearest neighbour on 250 cells. -/
example : ∃ out, (nearestPart true 3 3 (fun t => (Demo.lineQuery t).headD (0, 0)) [List.replicate 249 (1 : ℚ), [20]] >>=
      applyPart (⟨fun i => .fin (10 * i), none⟩ : Arr 3) (.fin (-9))) = .ok out ∧
    out[0]? = some (.fin 0) ∧ out[249]? = some (.fin (-9)) := by
  refine ⟨List.replicate 249 (.fin 0) ++ [.fin (-9)], ?_, ?_, ?_⟩ <;> decide +kernel

/-- the largest of the distances. -/
theorem foldl_max_rat (l : List ℚ) : ∀ a : ℚ, (l.foldl max a = a ∨ l.foldl max a ∈ l) ∧ a ≤ l.foldl max a ∧
    ∀ x ∈ l, x ≤ l.foldl max a := by
  induction l with
  | nil => intro a; exact ⟨Or.inl rfl, le_refl a, by simp⟩
  | cons b l ih =>
    intro a
    obtain ⟨h1, h2, h3⟩ := ih (max a b)
    rw [List.foldl_cons]
    refine ⟨?_, (le_max_left a b).trans h2, ?_⟩
    · rcases h1 with h1 | h1
      · rw [h1]
        rcases max_choice a b with h | h
        · exact Or.inl h
        · rw [h]; exact Or.inr List.mem_cons_self
      · exact Or.inr (List.mem_cons_of_mem _ h1)
    · intro x hx
      rcases List.mem_cons.1 hx with rfl | hx
      · exact (le_max_right a x).trans h2
      · exact h3 x hx

/-- The bound: the largest distance of a source point to its nearest other point, enlarged by four parts in the number of
rows of the grid. -/
theorem search_bound (nj : Nat) (src : List Nbrs) (s : ℚ) (h0 : 0 ≤ s) (hmem : ∃ row ∈ src, ∃ p ∈ row, p.1 = s)
    (hmax : ∀ row ∈ src, ∀ p ∈ row, p.1 ≤ s) : minUpperBound nj src = s * (1 + 4 / nj) := by
  obtain ⟨h1, h2, h3⟩ := foldl_max_rat ((src.flatten).map (·.1)) 0
  have e : ((src.flatten).map (·.1)).foldl max 0 = s := by
    obtain ⟨row, hr, p, hp, rfl⟩ := hmem
    refine le_antisymm ?_ (h3 _ (List.mem_map.2 ⟨p, List.mem_flatten.2 ⟨row, hr, hp⟩, rfl⟩))
    rcases h1 with h | h
    · rw [h]; exact h0
    · obtain ⟨q, hq, hqe⟩ := List.mem_map.1 h
      rw [← hqe]
      obtain ⟨row', hr', hq'⟩ := List.mem_flatten.1 hq
      exact hmax row' hr' q hq'
  unfold minUpperBound
  rw [e]
  ring

namespace Spec

/-- `s` is the largest distance between one of `n` points and the point nearest to it (`gap`: the distances). -/
def Spacing (gap : Nat → Nat → ℚ) (n : Nat) (s : ℚ) : Prop :=
  (∃ i < n, ∃ j < n, i ≠ j ∧ gap i j = s ∧ ∀ i' < n, i' ≠ j → s ≤ gap i' j) ∧ ∀ j < n, ∃ i < n, i ≠ j ∧ gap i j ≤ s

end Spec

/-- The bound, from the distances of the source points. -/
theorem spacing_bound {n : Nat} (nj : Nat) (gap : Nat → Nat → ℚ) (src : List Nbrs)
    (hsrc : src.length = n) (hq2 : ∀ (j : Nat) row, src[j]? = some row → Spec.KNearest (fun i => gap i j) n 2 row)
    (hgap : ∀ i j, 0 ≤ gap i j ∧ (gap i j = 0 ↔ i = j)) (s : ℚ) (hs : Spec.Spacing gap n s) :
    0 ≤ s ∧ minUpperBound nj src = s * (1 + 4 / nj) := by
  obtain ⟨⟨i0, hi0, j0, hj0, hne0, hg0, hmin0⟩, hall⟩ := hs
  -- rows of the source: the point itself and a nearest other point
  have hrow : ∀ (j : Nat) row, j < n → src[j]? = some row → ∃ a b : ℚ × Nat, row = [a, b] ∧ a.1 = 0 ∧
      b.2 < n ∧ b.2 ≠ j ∧ b.1 = gap b.2 j ∧ ∀ i' < n, i' ≠ j → b.1 ≤ gap i' j := by
    intro j row hj hr
    have hk := hq2 j row hr
    match row, hk.len with
    | [a, b], _ =>
      obtain ⟨a1, a2, a3⟩ := KNearest_head hk
      have ha : a.2 = j := by
        have := a3 j hj
        rw [((hgap j j).2).2 rfl] at this
        exact ((hgap a.2 j).2).1 (le_antisymm this (hgap a.2 j).1)
      have hb := hk.real b (by simp)
      have hnd : a.2 ≠ b.2 := by
        have := hk.nodup
        simp only [List.map_cons, List.map_nil, List.nodup_cons, List.mem_singleton] at this
        exact this.1
      refine ⟨a, b, rfl, ?_, hb.1, fun he => hnd (ha.trans he.symm), hb.2, ?_⟩
      · rw [a2, ha]
        exact ((hgap j j).2).2 rfl
      · intro i' hi' hne
        by_cases hib : i' = b.2
        · rw [hib]; exact hb.2.le
        · exact hk.nearest b (by simp) i' hi' (by
            simp only [List.map_cons, List.map_nil, List.mem_cons, List.not_mem_nil, or_false]
            rintro (h | h)
            · exact hne (h.trans ha)
            · exact hib h)
  have h0 : 0 ≤ s := by rw [← hg0]; exact (hgap i0 j0).1
  refine ⟨h0, ?_⟩
  refine search_bound nj src s h0 ?_ ?_
  · obtain ⟨row, hr⟩ : ∃ row, src[j0]? = some row :=
      ⟨_, List.getElem?_eq_getElem (by rw [hsrc]; exact hj0)⟩
    obtain ⟨a, b, he, -, b1, b2, b3, b4⟩ := hrow j0 row hj0 hr
    refine ⟨row, List.mem_of_getElem? hr, b, by rw [he]; simp, ?_⟩
    refine le_antisymm ?_ ?_
    · rw [← hg0]; exact b4 i0 hi0 hne0
    · rw [b3]; exact hmin0 b.2 b1 b2
  · intro row hr p hp
    obtain ⟨j, hj, hr⟩ := List.getElem_of_mem hr
    rw [hsrc] at hj
    obtain ⟨a, b, he, a0, b1, b2, b3, b4⟩ := hrow j row hj (by rw [← hr]; exact List.getElem?_eq_getElem _)
    rw [he] at hp
    simp only [List.mem_cons, List.not_mem_nil, or_false] at hp
    rcases hp with rfl | rfl
    · rw [a0]; exact h0
    · obtain ⟨i, hi, hne, hle⟩ := hall j hj
      exact (b4 i hi hne).trans hle

/-- **C147.** Nearest neighbour: let `s` be the largest distance between a source point and the source point nearest to
it. A cell that has a source point within `s` gets the value of a nearest source point; a cell with no source point
within `s` (1 + 4 / rows of the source grid) gets the missing value. -/
theorem nearest_reach {τ : Type} {n : Nat} (tty : Bool) (nj : Nat) (gap : Nat → Nat → ℚ) (src : List Nbrs)
    (hsrc : src.length = n) (hq2 : ∀ (j : Nat) row, src[j]? = some row → Spec.KNearest (fun i => gap i j) n 2 row)
    (hgap : ∀ i j, 0 ≤ gap i j ∧ (gap i j = 0 ↔ i = j)) (s : ℚ)
    (hs : Spec.Spacing gap n s)
    (dist : Nat → τ → ℚ) (query : τ → ℚ × Nat) (hq : ∀ t, Spec.KNearest (fun i => dist i t) n 1 [query t])
    (grid : List (List τ)) (v : Arr n) (mv : Num) (out : List Num)
    (h : (nearestPart tty n (minUpperBound nj src) query grid >>= applyPart v mv) = .ok out)
    (j : Nat) (t : τ) (x : Num) (ht : grid.flatten[j]? = some t) (hx : out[j]? = some x) :
    ((∃ i < n, dist i t ≤ s) → ∃ i : Fin n, (∀ i' < n, dist i t ≤ dist i' t) ∧ x = v.data i) ∧
    ((∀ i < n, s * (1 + 4 / nj) < dist i t) → x = mv) := by
  obtain ⟨h0, hb⟩ := spacing_bound nj gap src hsrc hq2 hgap s hs
  obtain ⟨-, hout⟩ := scipy_nearest_output tty _ dist query hq grid v mv out h
  have hbig : s ≤ minUpperBound nj src := by
    rw [hb]
    have : 0 ≤ s * (4 / (nj : ℚ)) := mul_nonneg h0 (by positivity)
    linarith [mul_add s 1 (4 / (nj : ℚ))]
  rcases hout j t x ht hx with ⟨i, h1, h2, h3⟩ | ⟨h1, h2⟩
  · refine ⟨fun _ => ⟨i, h1, h3⟩, fun hfar => ?_⟩
    rw [hb] at h2
    exact absurd h2 (not_le.2 (hfar i i.2))
  · refine ⟨?_, fun _ => h2⟩
    rintro ⟨i, hi, hd⟩
    exact absurd (hd.trans hbig) (not_le.2 (h1 i hi))

namespace Demo

/-- two source points at distance 1; a cell is at the first point, or far away. -/
def farDist (i : Nat) (t : Bool) : ℚ := if t then i else 10 + i

/-- the answers of the tree. -/
def farQuery (t : Bool) : ℚ × Nat := if t then (0, 0) else (10, 0)

/-- neighbours of the source points. -/
def farSrc : List Nbrs := [[(0, 0), (1, 1)], [(0, 1), (1, 0)]]

/-- the field. -/
def farField : Arr 2 := ⟨fun i => .fin (7 + i), none⟩

/-- the cells. -/
def farGrid : List (List Bool) := [List.replicate 249 true, [false]]

example : ∃ out, (nearestPart true 2 (minUpperBound 2 farSrc) farQuery
      farGrid >>= applyPart farField (.fin (-9))) = .ok out ∧
    ∀ (j : Nat) t x, farGrid.flatten[j]? = some t → out[j]? = some x →
      ((∃ i < 2, farDist i t ≤ 1) → ∃ i : Fin 2, (∀ i' < 2, farDist i t ≤ farDist i' t) ∧
        x = farField.data i) ∧
      ((∀ i < 2, 1 * (1 + 4 / ((2 : Nat) : ℚ)) < farDist i t) → x = .fin (-9)) := by
  have hr : (nearestPart true 2 (minUpperBound 2 farSrc) farQuery
      farGrid >>= applyPart farField (.fin (-9))) =
      .ok (List.replicate 249 (.fin 7) ++ [.fin (-9)]) := by decide +kernel
  generalize (List.replicate 249 (Num.fin 7) ++ [Num.fin (-9)]) = out at hr
  refine ⟨out, hr, fun j t x => ?_⟩
  have c2 : ∀ i < 2, i = 0 ∨ i = 1 := by omega
  refine nearest_reach (n := 2) true 2 (fun i j => |(i : ℚ) - j|) farSrc rfl ?_ ?_ 1 ⟨?_, ?_⟩ farDist farQuery ?_ farGrid farField (.fin (-9)) out hr j t x
  · intro j row hj
    have : (j = 0 ∧ row = [(0, 0), (1, 1)]) ∨ (j = 1 ∧ row = [(0, 1), (1, 0)]) := by
      match j, hj with
      | 0, hj => exact Or.inl ⟨rfl, (Option.some.inj hj).symm⟩
      | 1, hj => exact Or.inr ⟨rfl, (Option.some.inj hj).symm⟩
    rcases this with ⟨rfl, rfl⟩ | ⟨rfl, rfl⟩
    · refine ⟨rfl, by decide +kernel, by decide, by decide +kernel, ?_⟩
      intro p hp i hi hn
      rcases c2 i hi with rfl | rfl <;> exact absurd (by decide) hn
    · refine ⟨rfl, by decide +kernel, by decide, by decide +kernel, ?_⟩
      intro p hp i hi hn
      rcases c2 i hi with rfl | rfl <;> exact absurd (by decide) hn
  · intro i j
    refine ⟨abs_nonneg _, ?_⟩
    rw [abs_eq_zero, sub_eq_zero]
    exact_mod_cast Iff.rfl
  · refine ⟨1, by omega, 0, by omega, by omega, by norm_num, ?_⟩
    intro i hi hne
    rcases c2 i hi with rfl | rfl
    · exact absurd rfl hne
    · norm_num
  · intro j hj
    rcases c2 j hj with rfl | rfl
    · exact ⟨1, by omega, by omega, by norm_num⟩
    · exact ⟨0, by omega, by omega, by norm_num⟩
  · intro t
    refine ⟨rfl, ?_, by simp, by simp, ?_⟩
    · cases t <;> decide +kernel
    · intro p hp i hi _
      rw [List.mem_singleton] at hp
      subst hp
      rcases c2 i hi with rfl | rfl <;> cases t <;> decide +kernel

end Demo
end PyG2P
