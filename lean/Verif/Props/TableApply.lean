import Verif.Model.TableApply
import Verif.Lemmas.Average

/-! # C60: what applying an interpolation table gives -/

namespace PyG2P
open TableApply
variable {n m : Nat}

/-- The last row of the table for cell `c`. -/
def Spec.rowFor {ρ : Type} (cell : ρ → Fin m) (tbl : List ρ) (c : Fin m) : Option ρ :=
  (tbl.filter fun e => cell e = c).getLast?

theorem put_fold {ρ : Type} (cell : ρ → Fin m) (val : ρ → Py Num) (tbl : List ρ) (r0 r : Fin m → Num)
    (h : tbl.foldlM (fun r e => do let x ← val e; (.ok (put r (cell e) x) : Py _)) r0 = .ok r)
    (c : Fin m) :
    match Spec.rowFor cell tbl c with
    | none => r c = r0 c
    | some e => ∃ x, val e = .ok x ∧ r c = x := by
  induction tbl generalizing r0 with
  | nil => cases h; rfl
  | cons e tbl ih =>
    rw [List.foldlM_cons] at h
    obtain ⟨r1, h1, h2⟩ := bind_ok_iff.1 h
    obtain ⟨x, hx, h3⟩ := bind_ok_iff.1 h1
    cases h3
    have h4 := ih _ h2
    unfold Spec.rowFor at h4 ⊢
    by_cases hc : cell e = c
    · rw [List.filter_cons_of_pos (by simpa using hc)]
      rw [List.getLast?_cons]
      cases hl : (tbl.filter fun e => cell e = c).getLast? with
      | none =>
        rw [hl] at h4
        simp only [Option.getD_none]
        exact ⟨x, hx, by rw [h4]; simp [put, hc]⟩
      | some e' => rw [hl] at h4; simpa using h4
    · rw [List.filter_cons_of_neg (by simpa using hc)]
      cases hl : (tbl.filter fun e => cell e = c).getLast? with
      | none => rw [hl] at h4; simp only at h4 ⊢; rw [h4]; simp [put, Ne.symm hc]
      | some e' => rw [hl] at h4; exact h4

/-- C60, `grib_nearest`: a target cell listed in the table gets the value of its source point (the missing
value if that point is masked); a cell not listed gets the missing value. -/
theorem C60_grib_nearest (v : Arr n) (mv : Num) (tbl : List (Fin m × Nat)) (r : Fin m → Num)
    (h : gribNearest v mv tbl = .ok r) (c : Fin m) :
    ((∀ e ∈ tbl, e.1 ≠ c) → r c = mv) ∧
    (∀ k, Spec.rowFor (·.1) tbl c = some (c, k) →
      ∃ hk : k < n, r c = if v.masked ⟨k, hk⟩ then mv else v.data ⟨k, hk⟩) := by
  have h' := put_fold (·.1) (fun e : Fin m × Nat => do
    let p ← srcAt v e.2
    (.ok (if p.2 then mv else p.1) : Py Num)) tbl (fun _ => mv) r (by
      rw [← h]; unfold gribNearest; congr 1
      funext r e; cases srcAt v e.2 <;> rfl) c
  constructor
  · intro hno
    have : Spec.rowFor (·.1) tbl c = none := by
      unfold Spec.rowFor
      rw [List.filter_eq_nil_iff.2 (by intro e he; simpa using hno e he)]; rfl
    rw [this] at h'; exact h'
  · intro k hk
    rw [hk] at h'
    obtain ⟨x, hx, hr⟩ := h'
    obtain ⟨p, hp, hx⟩ := bind_ok_iff.1 hx
    cases hx
    simp only [srcAt] at hp
    split_ifs at hp with hlt
    cases hp
    exact ⟨hlt, hr⟩

/-- C60, `grib_invdist`: a listed cell gets the weighted sum of its four source values, the missing value
if one of the four is masked; a cell not listed gets the missing value. -/
theorem C60_grib_invdist (v : Arr n) (mv : Num) (tbl : List (Row m)) (r : Fin m → Num)
    (h : gribInvdist v mv tbl = .ok r) (c : Fin m) :
    ((∀ e ∈ tbl, e.cell ≠ c) → r c = mv) ∧
    (∀ e, Spec.rowFor Row.cell tbl c = some e →
      ∃ (h1 : e.p1.1 < n) (h2 : e.p2.1 < n) (h3 : e.p3.1 < n) (h4 : e.p4.1 < n),
        r c = if v.masked ⟨_, h1⟩ ∨ v.masked ⟨_, h2⟩ ∨ v.masked ⟨_, h3⟩ ∨ v.masked ⟨_, h4⟩ then mv
          else v.data ⟨_, h1⟩ * e.p1.2 + v.data ⟨_, h2⟩ * e.p2.2 + v.data ⟨_, h3⟩ * e.p3.2
            + v.data ⟨_, h4⟩ * e.p4.2) := by
  have h' := put_fold Row.cell (fun e : Row m => do
    let a ← srcAt v e.p1.1
    let b ← srcAt v e.p2.1
    let d ← srcAt v e.p3.1
    let f ← srcAt v e.p4.1
    (.ok (if a.2 || b.2 || d.2 || f.2 then mv
      else a.1 * e.p1.2 + b.1 * e.p2.2 + d.1 * e.p3.2 + f.1 * e.p4.2) : Py Num)) tbl (fun _ => mv) r (by
      rw [← h]; unfold gribInvdist; congr 1
      funext r e
      cases srcAt v e.p1.1 <;> try rfl
      cases srcAt v e.p2.1 <;> try rfl
      cases srcAt v e.p3.1 <;> try rfl
      cases srcAt v e.p4.1 <;> rfl) c
  constructor
  · intro hno
    have : Spec.rowFor Row.cell tbl c = none := by
      unfold Spec.rowFor
      rw [List.filter_eq_nil_iff.2 (by intro e he; simpa using hno e he)]; rfl
    rw [this] at h'; exact h'
  · intro e he
    rw [he] at h'
    obtain ⟨x, hx, hr⟩ := h'
    obtain ⟨a, ha, hx⟩ := bind_ok_iff.1 hx
    obtain ⟨b, hb, hx⟩ := bind_ok_iff.1 hx
    obtain ⟨d, hd, hx⟩ := bind_ok_iff.1 hx
    obtain ⟨f, hf, hx⟩ := bind_ok_iff.1 hx
    simp only [srcAt] at ha hb hd hf
    split_ifs at ha hb hd hf with h1 h2 h3 h4
    cases ha; cases hb; cases hd; cases hf; cases hx
    refine ⟨h1, h2, h3, h4, ?_⟩
    rw [hr]
    simp only [Bool.or_eq_true, or_assoc]

theorem mapM_get {α β ε : Type} (f : α → Except ε β) (l : List α) (r : List β) (h : l.mapM f = .ok r) :
    r.length = l.length ∧ ∀ (j : Nat) a b, l[j]? = some a → r[j]? = some b → f a = .ok b := by
  induction l generalizing r with
  | nil => cases h; simp
  | cons x l ih =>
    rw [List.mapM_cons] at h
    obtain ⟨y, hy, h⟩ := bind_ok_iff.1 h
    obtain ⟨ys, hys, h⟩ := bind_ok_iff.1 h
    cases h
    obtain ⟨h1, h2⟩ := ih ys hys
    refine ⟨by simp [h1], ?_⟩
    intro j a b ha hb
    cases j with
    | zero => simp at ha hb; subst ha hb; exact hy
    | succ j => simp at ha hb; exact h2 j a b ha hb

/-- C60, nearest with scipy: each target cell gets the value of the source point the table lists for it,
and the missing value when the table lists it as unreachable (index `n`). -/
theorem C60_scipy_nearest (v : Arr n) (mv : Num) (idx : List Nat) (r : List Num)
    (h : scipyNearest v mv idx = .ok r) :
    r.length = idx.length ∧ ∀ (j : Nat) k x, idx[j]? = some k → r[j]? = some x →
      (∀ hk : k < n, x = v.data ⟨k, hk⟩) ∧ (k = n → x = mv) ∧ k ≤ n := by
  obtain ⟨h1, h2⟩ := mapM_get _ _ _ h
  refine ⟨h1, ?_⟩
  intro j k x hk hx
  have := h2 j k x hk hx
  unfold srcMv at this
  split_ifs at this with ha hb
  · cases this
    exact ⟨fun _ => rfl, fun hk => absurd ha (by omega), by omega⟩
  · cases this
    exact ⟨fun hk => absurd hk ha, fun _ => rfl, by omega⟩

/-- The value a table entry refers to: a source point, or the missing value for index `n`. -/
def Spec.valueAt (v : Arr n) (mv : Num) (k : Nat) : Num :=
  if h : k < n then v.data ⟨k, h⟩ else mv

theorem foldl_add_sum (l : List Num) (a : Num) : l.foldl (· + ·) a = a + l.sum := by
  induction l generalizing a with
  | nil => cases a <;> simp [Num.zero_def]
  | cons x l ih => rw [List.foldl_cons, ih, List.sum_cons, Num.add_assoc']

/-- C60, weighted tables with scipy: each target cell gets the sum of weight times value over its row of
the table; if every entry of the row is unreachable and the weights sum to one it is the missing value. -/
theorem C60_scipy_weighted (v : Arr n) (mv : Num) (rows : List (List (Nat × Num))) (r : List Num)
    (h : scipyWeighted v mv rows = .ok r) :
    r.length = rows.length ∧ ∀ (j : Nat) row x, rows[j]? = some row → r[j]? = some x →
      (x = (row.map fun p => p.2 * Spec.valueAt v mv p.1).sum) ∧ (∀ p ∈ row, p.1 ≤ n) ∧
      ((∀ p ∈ row, p.1 = n) → (row.map (·.2)).sum = 1 → x = mv) := by
  obtain ⟨h1, h2⟩ := mapM_get _ _ _ h
  refine ⟨h1, ?_⟩
  intro j row x hrow hx
  obtain ⟨xs, hxs, hsum⟩ := bind_ok_iff.1 (h2 j row x hrow hx)
  cases hsum
  have key : xs = row.map (fun p => p.2 * Spec.valueAt v mv p.1) ∧ ∀ p ∈ row, p.1 ≤ n := by
    clear h h1 h2 hx hrow
    induction row generalizing xs with
    | nil => cases hxs; simp
    | cons p row ih =>
      rw [List.mapM_cons] at hxs
      obtain ⟨y, hy, hxs⟩ := bind_ok_iff.1 hxs
      obtain ⟨ys, hys, hxs⟩ := bind_ok_iff.1 hxs
      cases hxs
      obtain ⟨z, hz, hy⟩ := bind_ok_iff.1 hy
      cases hy
      obtain ⟨h1, h2⟩ := ih ys hys
      have hz' : z = Spec.valueAt v mv p.1 ∧ p.1 ≤ n := by
        unfold srcMv at hz
        unfold Spec.valueAt
        split_ifs at hz ⊢ with ha hb
        · cases hz; exact ⟨rfl, by omega⟩
        · cases hz; exact ⟨rfl, by omega⟩
      refine ⟨by rw [h1, hz'.1]; rfl, ?_⟩
      intro q hq
      rcases List.mem_cons.1 hq with rfl | hq
      · exact hz'.2
      · exact h2 q hq
  have hx2 : xs.foldl (· + ·) 0 = (row.map fun p => p.2 * Spec.valueAt v mv p.1).sum := by
    rw [foldl_add_sum, key.1, Num.zero_add']
  refine ⟨hx2, key.2, ?_⟩
  intro hn hw
  rw [hx2]
  have : row.map (fun p => p.2 * Spec.valueAt v mv p.1) = row.map fun p => p.2 * mv := by
    apply List.map_congr_left
    intro p hp
    simp [Spec.valueAt, hn p hp]
  rw [this]
  have hgen : ∀ (l : List (Nat × Num)) , (l.map fun p => p.2 * mv).sum = (l.map (·.2)).sum * mv ∨ l = [] := by
    intro l
    induction l with
    | nil => right; rfl
    | cons p l ih =>
      left
      rw [List.map_cons, List.sum_cons, List.map_cons, List.sum_cons, Num.mul_comm' (_ + _), Num.mul_add']
      rcases ih with ih | ih
      · rw [ih, Num.mul_comm' mv, Num.mul_comm' mv]
      · subst ih
        simp only [List.map_nil, List.sum_nil]
        cases mv <;> cases p.2 <;> simp [Num.zero_def, mul_comm]
  rcases hgen row with hg | hg
  · rw [hg, hw, Num.ofNat_def]
    cases mv <;> simp
  · subst hg
    exact absurd hw (by decide +kernel)

/-- Non-vacuity: three source points (the last masked), four target cells. -/
example : gribNearest (⟨fun i => .fin i, some fun i => i = 2⟩ : Arr 3) (.fin (-9))
      ([(0, 1), (2, 2), (3, 0)] : List (Fin 4 × Nat)) =
    .ok (fun c => if c = 0 then .fin 1 else if c = 3 then .fin 0 else .fin (-9)) := by decide +kernel

example : gribInvdist (⟨fun i => .fin i, none⟩ : Arr 3) (.fin (-9))
      [⟨0, (0, .fin (1/4)), (1, .fin (1/4)), (2, .fin (1/4)), (2, .fin (1/4))⟩] =
    .ok ((fun c => if c = 0 then .fin (5/4) else .fin (-9)) : Fin 2 → Num) := by decide +kernel

example : scipyNearest (⟨fun i => .fin i, none⟩ : Arr 3) (.fin (-9)) [2, 3, 0] =
    .ok [.fin 2, .fin (-9), .fin 0] := by decide +kernel

example : scipyWeighted (⟨fun i => .fin i, none⟩ : Arr 3) (.fin (-9))
      [[(2, .fin (1/2)), (1, .fin (1/2))], [(3, .fin 1), (3, .fin 0)]] =
    .ok [.fin (3/2), .fin (-9)] := by decide +kernel

/-- C60 is false for masks with scipy tables: a masked source value reaches the output as a number
(`np.append` loses the mask), although the same value gives a missing cell with `grib_nearest`. -/
theorem C60_scipy_mask_lost : ∃ (v : Arr 1) (mv : Num), v.masked 0 = true ∧ v.data 0 ≠ mv ∧
    scipyNearest v mv [0] = .ok [v.data 0] ∧
    scipyWeighted v mv [[(0, .fin 1)]] = .ok [v.data 0] ∧
    gribNearest v mv [((0 : Fin 1), 0)] = .ok (fun _ => mv) :=
  ⟨⟨fun _ => .fin 7, some fun _ => true⟩, .fin (-9), by decide +kernel, by decide +kernel,
    by decide +kernel, by decide +kernel, by decide +kernel⟩

end PyG2P
