import Verif.Props.DelaunayTable

/-! # C112-C115: values, failures and order dependence of mode `bilinear_delaunay` -/

namespace PyG2P
open ScipyLib TableApply

/-- The weights of a cell in a triangle. -/
theorem delaunay_row (M : Mesh) (hM : Spec.Proper M) {root : Pt → Pt → Pt → Pt → Pt → ℚ × ℚ} {n : Nat}
    {orig : Option (List Nat)} {cells : List DCell} {rows : List (List (Num × Option Nat))}
    (h : delaunayTable M root n orig cells = .ok rows) {i t : Nat} {c : DCell} {T : Tri} {row : List (Num × Option Nat)}
    (hc : cells[i]? = some c) (hrow : rows[i]? = some row) (ht : c.tri = some t) (hT : M.tris[t]? = some T)
    (hf : c.far = false) (hin : Spec.InTriangle c.q (M.scaled T.v0) (M.scaled T.v1) (M.scaled T.v2)) :
    ∃ w1 w2 w3 w4 : ℚ, ∃ k1 k2 k3 : Nat, ∃ k4 : Option Nat,
      row = [(.fin w1, some k1), (.fin w2, some k2), (.fin w3, some k3), (.fin w4, k4)] ∧
      0 ≤ w1 ∧ 0 ≤ w2 ∧ 0 ≤ w3 ∧ 0 ≤ w4 ∧ w1 + w2 + w3 + w4 = 1 ∧ (k4 = none → w4 = 0) := by
  obtain ⟨P, q1, q2, q3, q4⟩ := delaunay_pairs h
  obtain ⟨T', raw, h1, h2, -, h4⟩ := q4 i c row hc hrow
  have : T' = T := by
    unfold Mesh.rowOf at h1
    rw [ht] at h1
    dsimp only at h1
    rw [hT] at h1
    cases h1; rfl
  subst this
  have hcol := hM T' (List.mem_of_getElem? hT)
  have hb := remapRow_spec h2
  rcases h4 t ht hf with ⟨hrw, -⟩ | ⟨u, U, hu, hU, hq⟩
  · obtain ⟨b1, b2, b3, hbe, hs, -, -, -, -, hpos⟩ := barycentric_weights _ _ _ c.q hcol
    obtain ⟨p1, p2, p3⟩ := hpos.2 hin
    unfold triRow4 at hrw
    rw [hbe] at hrw
    dsimp only at hrw
    rw [hrw] at hb
    cases hb with | cons e1 hb => cases hb with | cons e2 hb => cases hb with | cons e3 hb => cases hb with | cons e4 hb =>
    cases hb
    obtain ⟨x1, -, y1⟩ := e1
    obtain ⟨x2, -, y2⟩ := e2
    obtain ⟨x3, -, y3⟩ := e3
    obtain ⟨x4, y4, -⟩ := e4
    obtain ⟨j1, z1, -⟩ := y1 _ rfl
    obtain ⟨j2, z2, -⟩ := y2 _ rfl
    obtain ⟨j3, z3, -⟩ := y3 _ rfl
    refine ⟨b1, b2, b3, 0, j1, j2, j3, none, ?_, p1, p2, p3, le_refl _, by linarith, fun _ => rfl⟩
    have z4 := y4.1 rfl
    exact (congrArg₂ List.cons (Prod.ext x1 z1) (congrArg₂ List.cons (Prod.ext x2 z2) (congrArg₂ List.cons
      (Prod.ext x3 z3) (congrArg (fun e => [e]) (Prod.ext x4 z4)))))
  · obtain ⟨p1, p2, p3, p4, w1, w2, w3, w4, -, hw, hrow', hco, -⟩ := quadRow_spec hq
    obtain ⟨w1', w2', w3', w4', hw', a1, a2, a3, a4, hs, -⟩ := bilinear_weights (root c.p p1.pt p2.pt p3.pt p4.pt) c.p c.p c.p c.p c.p 0 0 0 0
    rw [hw] at hw'
    cases hw'
    rw [hrow'] at hb
    cases hb with | cons e1 hb => cases hb with | cons e2 hb => cases hb with | cons e3 hb => cases hb with | cons e4 hb =>
    cases hb
    obtain ⟨x1, -, y1⟩ := e1
    obtain ⟨x2, -, y2⟩ := e2
    obtain ⟨x3, -, y3⟩ := e3
    obtain ⟨x4, -, y4⟩ := e4
    obtain ⟨j1, z1, -⟩ := y1 _ rfl
    obtain ⟨j2, z2, -⟩ := y2 _ rfl
    obtain ⟨j3, z3, -⟩ := y3 _ rfl
    obtain ⟨j4, z4, -⟩ := y4 _ rfl
    refine ⟨w1, w2, w3, w4, j1, j2, j3, some j4, ?_, a1, a2, a3, a4, hs, fun h => by cases h⟩
    exact (congrArg₂ List.cons (Prod.ext x1 z1) (congrArg₂ List.cons (Prod.ext x2 z2) (congrArg₂ List.cons
      (Prod.ext x3 z3) (congrArg (fun e => [e]) (Prod.ext x4 z4)))))

/-- **C112.** A cell inside the triangulation gets a value within the range of the source field, whatever the solver
returns (so a constant field is reproduced), if the missing value is a number and the table names source points. -/
theorem delaunay_bounds (M : Mesh) (hM : Spec.Proper M) (root : Pt → Pt → Pt → Pt → Pt → ℚ × ℚ) (n : Nat)
    (orig : Option (List Nat)) (cells : List DCell) (rows : List (List (Num × Option Nat)))
    (h : delaunayTable M root n orig cells = .ok rows) (v : Arr n) (m lo hi : ℚ)
    (hv : ∀ k, ∃ y, v.data k = .fin y ∧ lo ≤ y ∧ y ≤ hi) (out : List Num)
    (ho : scipyWeighted v (.fin m) (rows.map (stored n)) = .ok out)
    (i t : Nat) (c : DCell) (T : Tri) (x : Num) (hc : cells[i]? = some c) (hx : out[i]? = some x)
    (ht : c.tri = some t) (hT : M.tris[t]? = some T) (hf : c.far = false)
    (hin : Spec.InTriangle c.q (M.scaled T.v0) (M.scaled T.v1) (M.scaled T.v2))
    (hn : ∀ row, rows[i]? = some row → ∀ e ∈ row, e.2 ≠ some n) :
    ∃ q, x = .fin q ∧ lo ≤ q ∧ q ≤ hi := by
  obtain ⟨hl, hg⟩ := C60_scipy_weighted v _ _ out ho
  have hi' : i < rows.length := by
    have := (List.getElem?_eq_some_iff.1 hx).1
    rw [hl, List.length_map] at this
    exact this
  have hrow : rows[i]? = some rows[i] := List.getElem?_eq_getElem hi'
  generalize rows[i] = row at hrow
  have hsr : (rows.map (stored n))[i]? = some (stored n row) := by rw [List.getElem?_map, hrow]; rfl
  obtain ⟨hx1, hx2, -⟩ := hg i _ x hsr hx
  obtain ⟨w1, w2, w3, w4, k1, k2, k3, k4, rfl, a1, a2, a3, a4, hs, h0⟩ := delaunay_row M hM h hc hrow ht hT hf hin
  have hn' := hn _ hrow
  have hval : ∀ k : Nat, k ≠ n → k ≤ n → ∃ y, Spec.valueAt v (.fin m) k = .fin y ∧ lo ≤ y ∧ y ≤ hi := by
    intro k hk hk'
    unfold Spec.valueAt
    rw [dif_pos (by omega : k < n)]
    exact hv _
  have hlohi : lo ≤ hi := by
    have e1 : k1 < n := by
      have := hx2 (k1, .fin w1) (by simp [stored])
      have := hn' (.fin w1, some k1) (by simp)
      dsimp only at *
      have : k1 ≠ n := fun e => this (by rw [e])
      omega
    obtain ⟨y, -, hy1, hy2⟩ := hv ⟨k1, e1⟩
    linarith
  have e1 := hval k1 (fun e => hn' (.fin w1, some k1) (by simp) (by rw [← e])) (hx2 (k1, .fin w1) (by simp [stored]))
  have e2 := hval k2 (fun e => hn' (.fin w2, some k2) (by simp) (by rw [← e])) (hx2 (k2, .fin w2) (by simp [stored]))
  have e3 := hval k3 (fun e => hn' (.fin w3, some k3) (by simp) (by rw [← e])) (hx2 (k3, .fin w3) (by simp [stored]))
  have e4 : ∃ y, Spec.valueAt v (.fin m) (k4.getD n) = .fin y ∧ w4 * lo ≤ w4 * y ∧ w4 * y ≤ w4 * hi := by
    cases k4 with
    | none =>
      rw [h0 rfl]
      refine ⟨m, ?_, by simp, by simp⟩
      unfold Spec.valueAt
      rw [dif_neg (by simp)]
    | some k =>
      obtain ⟨y, hy, l1, l2⟩ := hval k (fun e => hn' (.fin w4, some k) (by simp) (by rw [← e])) (hx2 (k, .fin w4) (by simp [stored]))
      exact ⟨y, hy, mul_le_mul_of_nonneg_left l1 a4, mul_le_mul_of_nonneg_left l2 a4⟩
  obtain ⟨y1, v1, l1, u1⟩ := e1
  obtain ⟨y2, v2, l2, u2⟩ := e2
  obtain ⟨y3, v3, l3, u3⟩ := e3
  obtain ⟨y4, v4, l4, u4⟩ := e4
  refine ⟨w1 * y1 + (w2 * y2 + (w3 * y3 + (w4 * y4 + 0))), ?_, ?_, ?_⟩
  · rw [hx1]
    simp only [stored, List.map_cons, List.map_nil, List.sum_cons, List.sum_nil, Option.getD_some, v1, v2, v3, v4,
      Num.fin_mul, Num.zero_def, Num.fin_add]
  · have e : (w1 + w2 + w3 + w4) * lo = lo := by rw [hs, one_mul]
    linarith [mul_le_mul_of_nonneg_left l1 a1, mul_le_mul_of_nonneg_left l2 a2, mul_le_mul_of_nonneg_left l3 a3]
  · have e : (w1 + w2 + w3 + w4) * hi = hi := by rw [hs, one_mul]
    linarith [mul_le_mul_of_nonneg_left u1 a1, mul_le_mul_of_nonneg_left u2 a2, mul_le_mul_of_nonneg_left u3 a3]

theorem sum_with_nan {l : List Num} (h : Num.nan ∈ l) : l.sum = .nan := by
  induction l with
  | nil => cases h
  | cons a l ih =>
    rw [List.sum_cons]
    rcases List.mem_cons.1 h with rfl | h
    · rw [Num.nan_add]
    · rw [ih h, Num.add_nan]

/-- **C115.** (a) A cell outside the triangulation, or too far from the source points, becomes NaN, not the missing
value. (b) If the missing value of the target is NaN, a cell interpolated in its triangle only (fourth index -1) becomes
NaN, although its fourth weight is 0. -/
theorem delaunay_nan (M : Mesh) (root : Pt → Pt → Pt → Pt → Pt → ℚ × ℚ) (n : Nat) (orig : Option (List Nat))
    (cells : List DCell) (rows : List (List (Num × Option Nat))) (h : delaunayTable M root n orig cells = .ok rows)
    (v : Arr n) (mv : Num) (out : List Num) (ho : scipyWeighted v mv (rows.map (stored n)) = .ok out) (i : Nat) (x : Num)
    (hx : out[i]? = some x) :
    (∀ c, cells[i]? = some c → c.tri = none ∨ c.far = true → x = .nan) ∧
    (∀ row w, rows[i]? = some row → (w, none) ∈ row → mv = .nan → x = .nan) := by
  obtain ⟨hl, hg⟩ := C60_scipy_weighted v _ _ out ho
  have hi' : i < rows.length := by
    have := (List.getElem?_eq_some_iff.1 hx).1
    rw [hl, List.length_map] at this
    exact this
  have hrow : rows[i]? = some rows[i] := List.getElem?_eq_getElem hi'
  generalize rows[i] = row at hrow
  have hsr : (rows.map (stored n))[i]? = some (stored n row) := by rw [List.getElem?_map, hrow]; rfl
  obtain ⟨hx1, hx2, -⟩ := hg i _ x hsr hx
  constructor
  · intro c hc hout
    obtain ⟨P, q1, q2, q3, q4⟩ := delaunay_pairs h
    obtain ⟨T, raw, h1, h2, h3, -⟩ := q4 i c row hc hrow
    rw [h3 hout] at h2
    have hb := remapRow_spec h2
    rw [hx1]
    apply sum_with_nan
    unfold outRow at hb
    cases hb with | cons e1 hb =>
    obtain ⟨x1, -, y1⟩ := e1
    obtain ⟨j1, z1, -⟩ := y1 _ rfl
    rw [stored, List.map_cons, List.map_cons, x1]
    exact List.mem_cons.2 (Or.inl (by rw [Num.nan_mul]))
  · intro row' w hr hm hmv
    rw [hrow] at hr
    cases hr
    subst hmv
    rw [hx1]
    apply sum_with_nan
    rw [List.mem_map]
    refine ⟨(n, w), ?_, ?_⟩
    · unfold stored
      rw [List.mem_map]
      exact ⟨(w, none), hm, rfl⟩
    · have : Spec.valueAt v .nan n = .nan := by
        unfold Spec.valueAt
        rw [dif_neg (by simp)]
      dsimp only
      rw [this, Num.mul_nan]

/-! ## Failures -/

namespace Spec

/-- What a triangulation provides: every triangle has three different corners, and shares two of them with each of its
neighbours. -/
def GoodMesh (M : Mesh) : Prop :=
  M.tris ≠ [] ∧ ∀ T ∈ M.tris, (T.v0 ≠ T.v1 ∧ T.v0 ≠ T.v2 ∧ T.v1 ≠ T.v2) ∧
    ∀ u, T.n0 = some u ∨ T.n1 = some u ∨ T.n2 = some u → ∃ U, M.tris[u]? = some U ∧
      ({T.v0, T.v1, T.v2} ∩ {U.v0, U.v1, U.v2} : Finset Nat).card = 2

/-- The triangle numbers of the cells are those of triangles. -/
def GoodCells (M : Mesh) (cells : List DCell) : Prop := ∀ c ∈ cells, ∀ t, c.tri = some t → t < M.tris.length

/-- `u` is a neighbour of the triangle of one of the cells (of the last triangle for cells outside). -/
def NearUsed (M : Mesh) (cells : List DCell) (u : Nat) : Prop :=
  ∃ c ∈ cells, ∃ T, (match c.tri with | some t => M.tris[t]? | none => M.tris.getLast?) = some T ∧
    (T.n0 = some u ∨ T.n1 = some u ∨ T.n2 = some u)

end Spec

theorem slots_spec (M : Mesh) (cells : List DCell) (t : Nat) :
    t < M.slots cells ↔ ∃ u, Spec.NearUsed M cells u ∧ t ≤ u := by
  have key : ∀ (l : List (Option Nat)) (m : Nat),
      t < l.foldl (fun m u => max m (slotsFor u)) m ↔ t < m ∨ ∃ u, some u ∈ l ∧ t ≤ u := by
    intro l
    induction l with
    | nil => intro m; simp
    | cons a l ih =>
      intro m
      rw [List.foldl_cons, ih]
      cases a with
      | none => simp [slotsFor]
      | some k =>
        simp only [slotsFor, lt_max_iff, List.mem_cons, Option.some.injEq]
        constructor
        · rintro ((h | h) | ⟨u, hu, h⟩)
          · exact Or.inl h
          · exact Or.inr ⟨k, Or.inl rfl, by omega⟩
          · exact Or.inr ⟨u, Or.inr hu, h⟩
        · rintro (h | ⟨u, rfl | hu, h⟩)
          · exact Or.inl (Or.inl h)
          · exact Or.inl (Or.inr (by omega))
          · exact Or.inr ⟨u, hu, h⟩
  unfold Mesh.slots
  rw [key]
  simp only [Nat.not_lt_zero, false_or]
  constructor
  · rintro ⟨u, hu, h⟩
    rw [List.mem_flatMap] at hu
    obtain ⟨T, hT, hu⟩ := hu
    rw [List.mem_filterMap] at hT
    obtain ⟨c, hc, hT⟩ := hT
    refine ⟨u, ⟨c, hc, T, hT, ?_⟩, h⟩
    simp only [Tri.nbs, List.mem_cons, List.not_mem_nil, or_false] at hu
    rcases hu with h | h | h
    · exact Or.inl h.symm
    · exact Or.inr (Or.inl h.symm)
    · exact Or.inr (Or.inr h.symm)
  · rintro ⟨u, ⟨c, hc, T, hT, hu⟩, h⟩
    refine ⟨u, ?_, h⟩
    rw [List.mem_flatMap]
    refine ⟨T, List.mem_filterMap.2 ⟨c, hc, hT⟩, ?_⟩
    simp only [Tri.nbs, List.mem_cons, List.not_mem_nil, or_false]
    rcases hu with h | h | h
    · exact Or.inl h.symm
    · exact Or.inr (Or.inl h.symm)
    · exact Or.inr (Or.inr h.symm)

theorem favourite_mem {M : Mesh} {T : Tri} {u : Nat} (h : M.favourite T = some u) :
    T.n0 = some u ∨ T.n1 = some u ∨ T.n2 = some u := by
  unfold Mesh.favourite at h
  generalize widest (M.scaled T.v0) (M.scaled T.v1) (M.scaled T.v2) = k at h
  cases hk : T.nbs[k]? with
  | none => rw [hk] at h; cases h
  | some x =>
    rw [hk] at h
    have hm := List.mem_of_getElem? hk
    simp only [Option.getD_some] at h
    subst h
    simp only [Tri.nbs, List.mem_cons, List.not_mem_nil, or_false] at hm
    rcases hm with h | h | h
    · exact Or.inl h.symm
    · exact Or.inr (Or.inl h.symm)
    · exact Or.inr (Or.inr h.symm)

/-- Two triangles with two common corners have four corners. -/
theorem quadRow_ok {M : Mesh} {root : Pt → Pt → Pt → Pt → Pt → ℚ × ℚ} {T U : Tri} {c : DCell}
    (hT : T.v0 ≠ T.v1 ∧ T.v0 ≠ T.v2 ∧ T.v1 ≠ T.v2) (hU : U.v0 ≠ U.v1 ∧ U.v0 ≠ U.v2 ∧ U.v1 ≠ U.v2)
    (h : ({T.v0, T.v1, T.v2} ∩ {U.v0, U.v1, U.v2} : Finset Nat).card = 2) :
    ∃ row, quadRow M root T U c = .ok row := by
  have hlen : (unique (T.ids ++ U.ids)).length = 4 := by
    unfold unique
    rw [← List.card_toFinset]
    have e : ((T.ids ++ U.ids).insertionSort (· ≤ ·)).toFinset = {T.v0, T.v1, T.v2} ∪ {U.v0, U.v1, U.v2} := by
      ext x
      rw [List.mem_toFinset, (List.perm_insertionSort _ _).mem_iff]
      simp only [Tri.ids, List.cons_append, List.nil_append, List.mem_cons, List.not_mem_nil, or_false,
        Finset.mem_union, Finset.mem_insert, Finset.mem_singleton, or_assoc]
    rw [e]
    have c1 : ({T.v0, T.v1, T.v2} : Finset Nat).card = 3 := Finset.card_eq_three.2 ⟨_, _, _, hT.1, hT.2.1, hT.2.2, rfl⟩
    have c2 : ({U.v0, U.v1, U.v2} : Finset Nat).card = 3 := Finset.card_eq_three.2 ⟨_, _, _, hU.1, hU.2.1, hU.2.2, rfl⟩
    have := Finset.card_union_add_card_inter {T.v0, T.v1, T.v2} ({U.v0, U.v1, U.v2} : Finset Nat)
    omega
  obtain ⟨p1, p2, p3, p4, hc, -⟩ := corners_permuted ((unique (T.ids ++ U.ids)).map fun i => (⟨M.plain i, i⟩ : Corner))
    (by rw [List.length_map]; exact hlen)
  unfold quadRow
  rw [hc]
  exact ⟨_, rfl⟩

theorem pairTri_ok {st : List (Option Nat)} {t : Nat} {fav : Option Nat} (ht : t < st.length)
    (hf : ∀ u, fav = some u → u < st.length) : ∃ st' r, pairTri st t fav = .ok (st', r) := by
  have fin : ∀ st1 : List (Option Nat), t < st1.length → ∃ st' r, (do let r ← slot st1 t; (.ok (st1, r) : Py _)) = .ok (st', r) := by
    intro st1 h1
    refine ⟨st1, st1[t], ?_⟩
    rw [slot_ok.2 (List.getElem?_eq_getElem h1)]
    rfl
  unfold pairTri
  cases fav with
  | none => exact fin st ht
  | some u =>
    have hu := hf u rfl
    rw [slot_ok.2 (List.getElem?_eq_getElem ht)]
    cases ho : st[t] with
    | some x =>
      dsimp only [bind, Except.bind]
      rw [slot_ok.2 (List.getElem?_eq_getElem ht)]
      exact ⟨_, _, rfl⟩
    | none =>
      dsimp only [bind, Except.bind]
      rw [slot_ok.2 (List.getElem?_eq_getElem hu)]
      cases st[u] with
      | some x =>
        dsimp only
        rw [slot_ok.2 (List.getElem?_eq_getElem ht)]
        exact ⟨_, _, rfl⟩
      | none =>
        dsimp only
        exact fin _ (by simpa using ht)

theorem pairTri_error {st : List (Option Nat)} {t : Nat} {fav : Option Nat} (ht : st.length ≤ t) :
    pairTri st t fav = .error .indexError := by
  have hs : slot st t = .error .indexError := by
    unfold slot
    rw [List.getElem?_eq_none ht]
  unfold pairTri
  cases fav with
  | none => dsimp only [bind, Except.bind]; rw [hs]
  | some u => dsimp only [bind, Except.bind]; rw [hs]

/-- What is kept while the cells are processed. -/
def PairsOk (M : Mesh) (N : Nat) (st : List (Option Nat)) : Prop :=
  st.length = N ∧ Mutual st ∧ ∀ a b : Nat, st[a]? = some (some b) →
    (∃ T, M.tris[a]? = some T ∧ M.favourite T = some b) ∨ (∃ T, M.tris[b]? = some T ∧ M.favourite T = some a)

theorem cellStep_result {M : Mesh} (hM : Spec.GoodMesh M) (root : Pt → Pt → Pt → Pt → Pt → ℚ × ℚ) {N : Nat}
    {st : List (Option Nat)} (hst : PairsOk M N st) {c : DCell} (hc : ∀ t, c.tri = some t → t < M.tris.length)
    (hfav : ∀ t T u, c.tri = some t → M.tris[t]? = some T → M.favourite T = some u → u < N) :
    ((∃ t, c.tri = some t ∧ c.far = false ∧ N ≤ t) → cellStep M root st c = .error .indexError) ∧
    ((∀ t, c.tri = some t → c.far = false → t < N) → ∃ st' row, cellStep M root st c = .ok (st', row) ∧ PairsOk M N st') := by
  obtain ⟨hlen, hmut, hor⟩ := hst
  cases ht : c.tri with
  | none =>
    have hT : M.rowOf c = some (M.tris.getLast hM.1) := by
      unfold Mesh.rowOf
      rw [ht]
      exact List.getLast?_eq_some_getLast hM.1
    refine ⟨fun ⟨t, h, _⟩ => (by cases h), fun _ => ⟨st, outRow (M.tris.getLast hM.1), ?_, hlen, hmut, hor⟩⟩
    unfold cellStep
    rw [hT, ht]
  | some t =>
    have hlt := hc t ht
    have hTt : M.tris[t]? = some M.tris[t] := List.getElem?_eq_getElem hlt
    generalize M.tris[t] = T at hTt
    have hT : M.rowOf c = some T := by
      unfold Mesh.rowOf
      rw [ht]
      exact hTt
    unfold cellStep
    rw [hT, ht]
    dsimp only
    by_cases hf : c.far = true
    · rw [if_pos hf]
      refine ⟨fun ⟨_, _, h, _⟩ => (by rw [hf] at h; cases h), fun _ => ⟨st, _, rfl, hlen, hmut, hor⟩⟩
    · rw [if_neg hf]
      have hf' : c.far = false := by simpa using hf
      constructor
      · rintro ⟨t', h', -, hN⟩
        cases h'
        rw [pairTri_error (by rw [hlen]; exact hN)]
        rfl
      · intro hN
        have hN := hN t rfl hf'
        obtain ⟨st', r, hp⟩ := pairTri_ok (st := st) (t := t) (fav := M.favourite T) (by rw [hlen]; exact hN)
          (fun u hu => by rw [hlen]; exact hfav t T u ht hTt hu)
        obtain ⟨m0, m1, m2, m3, m4, -⟩ := pairTri_spec hp hmut
        have hst' : PairsOk M N st' := by
          refine ⟨by rw [m0, hlen], m1, fun a b hab => ?_⟩
          rcases m4 a b hab with h | ⟨rfl, h⟩ | ⟨rfl, h⟩
          · exact hor a b h
          · exact Or.inl ⟨T, hTt, h⟩
          · exact Or.inr ⟨T, hTt, h⟩
        rw [hp]
        dsimp only [bind, Except.bind]
        cases r with
        | none => exact ⟨st', _, rfl, hst'⟩
        | some u =>
          have hboth : ∃ U, M.tris[u]? = some U ∧ ({T.v0, T.v1, T.v2} ∩ {U.v0, U.v1, U.v2} : Finset Nat).card = 2 := by
            rcases hst'.2.2 t u m2 with ⟨T', hT', h⟩ | ⟨U, hU, h⟩
            · rw [hTt] at hT'
              cases hT'
              exact (hM.2 T (List.mem_of_getElem? hTt)).2 u (favourite_mem h)
            · obtain ⟨T', hT', hcard⟩ := (hM.2 U (List.mem_of_getElem? hU)).2 t (favourite_mem h)
              rw [hTt] at hT'
              cases hT'
              exact ⟨U, hU, by rw [Finset.inter_comm]; exact hcard⟩
          obtain ⟨U, hU, hcard⟩ := hboth
          obtain ⟨row, hrow⟩ := quadRow_ok (M := M) (root := root) (c := c) (hM.2 T (List.mem_of_getElem? hTt)).1
            (hM.2 U (List.mem_of_getElem? hU)).1 hcard
          dsimp only
          rw [hU]
          dsimp only
          rw [hrow]
          exact ⟨st', row, rfl, hst'⟩

theorem cellLoop_result {M : Mesh} (hM : Spec.GoodMesh M) (root : Pt → Pt → Pt → Pt → Pt → ℚ × ℚ) {N : Nat}
    {st : List (Option Nat)} (hst : PairsOk M N st) {cells : List DCell} (hc : Spec.GoodCells M cells)
    (hfav : ∀ c ∈ cells, ∀ t T u, c.tri = some t → M.tris[t]? = some T → M.favourite T = some u → u < N) :
    ((∃ c ∈ cells, ∃ t, c.tri = some t ∧ c.far = false ∧ N ≤ t) → cellLoop M root st cells = .error .indexError) ∧
    ((∀ c ∈ cells, ∀ t, c.tri = some t → c.far = false → t < N) → ∃ rows, cellLoop M root st cells = .ok rows) := by
  induction cells generalizing st with
  | nil => exact ⟨fun ⟨c, h, _⟩ => (by cases h), fun _ => ⟨[], rfl⟩⟩
  | cons c cs ih =>
    obtain ⟨s1, s2⟩ := cellStep_result hM root hst (hc c (List.mem_cons_self ..)) (hfav c (List.mem_cons_self ..))
    unfold cellLoop
    by_cases hbad : ∃ t, c.tri = some t ∧ c.far = false ∧ N ≤ t
    · rw [s1 hbad]
      refine ⟨fun _ => rfl, fun h => ?_⟩
      obtain ⟨t, h1, h2, h3⟩ := hbad
      have := h c (List.mem_cons_self ..) t h1 h2
      omega
    · have hgood : ∀ t, c.tri = some t → c.far = false → t < N := by
        intro t h1 h2
        by_contra h3
        exact hbad ⟨t, h1, h2, by omega⟩
      obtain ⟨st', row, hs, hst'⟩ := s2 hgood
      obtain ⟨i1, i2⟩ := ih hst' (fun c' h' => hc c' (List.mem_cons_of_mem _ h'))
        (fun c' h' => hfav c' (List.mem_cons_of_mem _ h'))
      rw [hs]
      dsimp only [bind, Except.bind]
      constructor
      · rintro ⟨c', h', hb⟩
        rcases List.mem_cons.1 h' with rfl | h'
        · exact absurd hb hbad
        · rw [i1 ⟨c', h', hb⟩]
      · intro h
        obtain ⟨rows, hr⟩ := i2 fun c' h' => h c' (List.mem_cons_of_mem _ h')
        rw [hr]
        exact ⟨_, rfl⟩

theorem remapRow_none_ok (n : Nat) (rows : List (List (Num × Option Nat))) : rows.mapM (remapRow n none) = .ok rows := by
  have h1 : ∀ row, remapRow n none row = .ok row := by
    intro row
    unfold remapRow
    induction row with
    | nil => rfl
    | cons e row ih =>
      rw [List.mapM_cons, ih]
      rfl
  induction rows with
  | nil => rfl
  | cons e rows ih =>
    rw [List.mapM_cons, ih, h1]
    rfl

/-- **C113** (source grids that are not global). The table is built unless one of the cells lies in a triangle with a
number larger than those of all neighbours of the triangles in use; then the run ends with an IndexError. -/
theorem delaunay_fails_iff (M : Mesh) (hM : Spec.GoodMesh M) (root : Pt → Pt → Pt → Pt → Pt → ℚ × ℚ) (n : Nat)
    (cells : List DCell) (hc : Spec.GoodCells M cells) :
    ((∃ c ∈ cells, ∃ t, c.tri = some t ∧ c.far = false ∧ ∀ u, Spec.NearUsed M cells u → u < t) →
      delaunayTable M root n none cells = .error .indexError) ∧
    ((∀ c ∈ cells, ∀ t, c.tri = some t → c.far = false → ∃ u, Spec.NearUsed M cells u ∧ t ≤ u) →
      ∃ rows, delaunayTable M root n none cells = .ok rows) := by
  have h0 : PairsOk M (M.slots cells) (List.replicate (M.slots cells) none) := by
    have h0 : ∀ a b : Nat, (List.replicate (M.slots cells) (none : Option Nat))[a]? ≠ some (some b) := by
      intro a b hab
      have := List.mem_of_getElem? hab
      rw [List.mem_replicate] at this
      cases this.2
    exact ⟨List.length_replicate, fun a b h => absurd h (h0 a b), fun a b h => absurd h (h0 a b)⟩
  have hfav : ∀ c ∈ cells, ∀ t T u, c.tri = some t → M.tris[t]? = some T → M.favourite T = some u → u < M.slots cells := by
    intro c hcm t T u ht hT hu
    rw [slots_spec]
    exact ⟨u, ⟨c, hcm, T, by rw [ht]; exact hT, favourite_mem hu⟩, le_refl _⟩
  obtain ⟨r1, r2⟩ := cellLoop_result hM root h0 hc hfav
  unfold delaunayTable
  constructor
  · rintro ⟨c, hcm, t, ht, hf, hu⟩
    rw [r1 ⟨c, hcm, t, ht, hf, ?_⟩]
    · rfl
    · by_contra hlt
      obtain ⟨u, h1, h2⟩ := (slots_spec M cells t).1 (by omega)
      have := hu u h1
      omega
  · intro h
    obtain ⟨rows, hr⟩ := r2 fun c hcm t ht hf => (slots_spec M cells t).2 (h c hcm t ht hf)
    rw [hr]
    exact ⟨rows, remapRow_none_ok n rows⟩

/-! ## A concrete triangulation -/

namespace Demo

/-- Five source points: a pentagon. -/
def pentagon : Nat → Pt
  | 0 => ⟨0, 0⟩
  | 1 => ⟨4, 0⟩
  | 2 => ⟨0, 5⟩
  | 3 => ⟨4, 5⟩
  | _ => ⟨2, -1⟩

/-- Its three triangles in a row. -/
def mesh : Mesh := ⟨[⟨0, 1, 4, none, none, some 1⟩, ⟨0, 1, 2, some 2, none, some 0⟩, ⟨1, 2, 3, none, none, some 1⟩],
  pentagon, pentagon⟩

def cellA : DCell := ⟨some 0, false, ⟨2, -7/20⟩, ⟨2, -7/20⟩⟩
def cellB : DCell := ⟨some 1, false, ⟨1, 1⟩, ⟨1, 1⟩⟩
def cellC : DCell := ⟨some 2, false, ⟨3, 4⟩, ⟨3, 4⟩⟩

theorem mesh_good : Spec.GoodMesh mesh ∧ Spec.Proper mesh := by
  refine ⟨⟨by simp [mesh], ?_⟩, ?_⟩
  · intro T hT
    simp only [mesh, List.mem_cons, List.not_mem_nil, or_false] at hT
    rcases hT with rfl | rfl | rfl
    · refine ⟨by decide, fun u hu => ?_⟩
      obtain rfl : u = 1 := by
        rcases hu with h | h | h <;> cases h
        rfl
      exact ⟨_, rfl, by decide⟩
    · refine ⟨by decide, fun u hu => ?_⟩
      rcases hu with h | h | h <;> cases h
      · exact ⟨_, rfl, by decide⟩
      · exact ⟨_, rfl, by decide⟩
    · refine ⟨by decide, fun u hu => ?_⟩
      obtain rfl : u = 1 := by
        rcases hu with h | h | h <;> cases h
        rfl
      exact ⟨_, rfl, by decide⟩
  · intro T hT
    simp only [mesh, List.mem_cons, List.not_mem_nil, or_false] at hT
    rcases hT with rfl | rfl | rfl <;> unfold Spec.Collinear <;> norm_num [mesh, pentagon]

theorem fav : mesh.favourite ⟨0, 1, 4, none, none, some 1⟩ = some 1 ∧
    mesh.favourite ⟨0, 1, 2, some 2, none, some 0⟩ = some 2 ∧
    mesh.favourite ⟨1, 2, 3, none, none, some 1⟩ = some 1 := by
  refine ⟨?_, ?_, ?_⟩
  · have := (widest_of_longest (pentagon 0) (pentagon 1) (pentagon 4) (by unfold Spec.Collinear; norm_num [pentagon])).2.2
      (by norm_num [dist2, pentagon]) (by norm_num [dist2, pentagon])
    unfold Mesh.favourite
    change (Tri.nbs _)[widest (pentagon 0) (pentagon 1) (pentagon 4)]?.getD none = _
    rw [this]
    rfl
  · have := (widest_of_longest (pentagon 0) (pentagon 1) (pentagon 2) (by unfold Spec.Collinear; norm_num [pentagon])).1
      (by norm_num [dist2, pentagon]) (by norm_num [dist2, pentagon])
    unfold Mesh.favourite
    change (Tri.nbs _)[widest (pentagon 0) (pentagon 1) (pentagon 2)]?.getD none = _
    rw [this]
    rfl
  · have := (widest_of_longest (pentagon 1) (pentagon 2) (pentagon 3) (by unfold Spec.Collinear; norm_num [pentagon])).2.2
      (by norm_num [dist2, pentagon]) (by norm_num [dist2, pentagon])
    unfold Mesh.favourite
    change (Tri.nbs _)[widest (pentagon 1) (pentagon 2) (pentagon 3)]?.getD none = _
    rw [this]
    rfl

end Demo

theorem cellStep_quad {M : Mesh} {root : Pt → Pt → Pt → Pt → Pt → ℚ × ℚ} {st st' : List (Option Nat)} {c : DCell}
    {t u : Nat} {T U : Tri} {row : List (Num × Option Nat)} (hT : M.rowOf c = some T) (ht : c.tri = some t)
    (hf : c.far = false) (hp : pairTri st t (M.favourite T) = .ok (st', some u)) (hU : M.tris[u]? = some U)
    (hq : quadRow M root T U c = .ok row) : cellStep M root st c = .ok (st', row) := by
  unfold cellStep
  rw [hT, ht]
  dsimp only
  rw [hf, if_neg (by decide), hp]
  dsimp only [bind, Except.bind]
  rw [hU]
  dsimp only
  rw [hq]

theorem cellStep_tri {M : Mesh} {root : Pt → Pt → Pt → Pt → Pt → ℚ × ℚ} {st st' : List (Option Nat)} {c : DCell}
    {t : Nat} {T : Tri} (hT : M.rowOf c = some T) (ht : c.tri = some t)
    (hf : c.far = false) (hp : pairTri st t (M.favourite T) = .ok (st', none)) :
    cellStep M root st c = .ok (st', triRow4 M T c) := by
  unfold cellStep
  rw [hT, ht]
  dsimp only
  rw [hf, if_neg (by decide), hp]
  rfl

open Demo in
/-- **C114.** The value of a cell depends on the order of the cells: one triangulation, two cells. If the cell of the
first triangle comes first it is interpolated between four points, otherwise its partner is taken by then and it is
interpolated in its triangle; a field that is 1 in one of the points gives 1/20 and 0. (The solver finds the exact
root.) -/
theorem delaunay_order (root : Pt → Pt → Pt → Pt → Pt → ℚ × ℚ)
    (hroot : root cellA.p (pentagon 0) (pentagon 2) (pentagon 1) (pentagon 4) = (1/4, 4/5)) :
    alphaBeta cellA.p (pentagon 0) (pentagon 2) (pentagon 1) (pentagon 4) (1/4, 4/5) = (0, 0) ∧
    Spec.InTriangle cellA.q (pentagon 0) (pentagon 1) (pentagon 4) ∧
    ∃ a b a' b', delaunayTable mesh root 5 none [cellA, cellB] = .ok [a, b] ∧
      delaunayTable mesh root 5 none [cellB, cellA] = .ok [b', a'] ∧
      scipyWeighted (⟨fun i => if i = 2 then .fin 1 else .fin 0, none⟩ : Arr 5) (.fin (-9)) [stored 5 a] = .ok [.fin (1/20)] ∧
      scipyWeighted (⟨fun i => if i = 2 then .fin 1 else .fin 0, none⟩ : Arr 5) (.fin (-9)) [stored 5 a'] = .ok [.fin 0] := by
  refine ⟨by norm_num [alphaBeta, cellA, pentagon], ⟨13/40, 13/40, 7/20, ?_⟩, ?_⟩
  · rw [IsMean3_iff]; norm_num [cellA, pentagon]
  obtain ⟨f1, f2, f3⟩ := fav
  have hg := mesh_good.1
  obtain ⟨rb, hrb⟩ := quadRow_ok (M := mesh) (root := root) (T := ⟨0, 1, 2, some 2, none, some 0⟩)
    (U := ⟨0, 1, 4, none, none, some 1⟩) (c := cellB) (by decide) (by decide) (by decide)
  obtain ⟨rb', hrb'⟩ := quadRow_ok (M := mesh) (root := root) (T := ⟨0, 1, 2, some 2, none, some 0⟩)
    (U := ⟨1, 2, 3, none, none, some 1⟩) (c := cellB) (by decide) (by decide) (by decide)
  have hra : quadRow mesh root ⟨0, 1, 4, none, none, some 1⟩ ⟨0, 1, 2, some 2, none, some 0⟩ cellA =
      .ok [(.fin (3/20), some 0), (.fin (1/20), some 2), (.fin (1/5), some 1), (.fin (3/5), some 4)] := by
    unfold quadRow
    have hcl : clockwise ((unique (Tri.ids ⟨0, 1, 4, none, none, some 1⟩ ++ Tri.ids ⟨0, 1, 2, some 2, none, some 0⟩)).map
        fun i => (⟨mesh.plain i, i⟩ : Corner)) =
        some (⟨pentagon 0, 0⟩, ⟨pentagon 2, 2⟩, ⟨pentagon 1, 1⟩, ⟨pentagon 4, 4⟩) := by decide +kernel
    rw [hcl]
    dsimp only
    rw [hroot]
    have hw : bilinearWeights (1/4, 4/5) = (3/20, 1/20, 1/5, 3/5) := by decide +kernel
    rw [hw]
  have hta : triRow4 mesh ⟨0, 1, 4, none, none, some 1⟩ cellA =
      [(.fin (13/40), some 0), (.fin (13/40), some 1), (.fin (7/20), some 4), (.fin 0, none)] := by decide +kernel
  refine ⟨[(.fin (3/20), some 0), (.fin (1/20), some 2), (.fin (1/5), some 1), (.fin (3/5), some 4)], rb,
    [(.fin (13/40), some 0), (.fin (13/40), some 1), (.fin (7/20), some 4), (.fin 0, none)], rb', ?_, ?_, ?_, ?_⟩
  · have hs : mesh.slots [cellA, cellB] = 3 := by decide +kernel
    have s1 : cellStep mesh root [none, none, none] cellA = .ok ([some 1, some 0, none],
        [(.fin (3/20), some 0), (.fin (1/20), some 2), (.fin (1/5), some 1), (.fin (3/5), some 4)]) :=
      cellStep_quad (t := 0) (u := 1) (T := ⟨0, 1, 4, none, none, some 1⟩) rfl rfl rfl (by rw [f1]; decide +kernel) rfl hra
    have s2 : cellStep mesh root [some 1, some 0, none] cellB = .ok ([some 1, some 0, none], rb) :=
      cellStep_quad (t := 1) (u := 0) (T := ⟨0, 1, 2, some 2, none, some 0⟩) rfl rfl rfl (by rw [f2]; decide +kernel) rfl hrb
    unfold delaunayTable
    rw [hs]
    change (do
      let rows ← cellLoop mesh root [none, none, none] [cellA, cellB]
      rows.mapM (remapRow 5 none)) = _
    rw [cellLoop, s1]
    dsimp only [bind, Except.bind]
    rw [cellLoop, s2]
    dsimp only [bind, Except.bind]
    rw [cellLoop]
    dsimp only [bind, Except.bind]
    exact remapRow_none_ok _ _
  · have hs : mesh.slots [cellB, cellA] = 3 := by decide +kernel
    have s1 : cellStep mesh root [none, none, none] cellB = .ok ([none, some 2, some 1], rb') :=
      cellStep_quad (t := 1) (u := 2) (T := ⟨0, 1, 2, some 2, none, some 0⟩) rfl rfl rfl (by rw [f2]; decide +kernel) rfl hrb'
    have s2 : cellStep mesh root [none, some 2, some 1] cellA = .ok ([none, some 2, some 1],
        [(.fin (13/40), some 0), (.fin (13/40), some 1), (.fin (7/20), some 4), (.fin 0, none)]) := by
      rw [← hta]
      exact cellStep_tri (t := 0) (T := ⟨0, 1, 4, none, none, some 1⟩) rfl rfl rfl (by rw [f1]; decide +kernel)
    unfold delaunayTable
    rw [hs]
    change (do
      let rows ← cellLoop mesh root [none, none, none] [cellB, cellA]
      rows.mapM (remapRow 5 none)) = _
    rw [cellLoop, s1]
    dsimp only [bind, Except.bind]
    rw [cellLoop, s2]
    dsimp only [bind, Except.bind]
    rw [cellLoop]
    dsimp only [bind, Except.bind]
    exact remapRow_none_ok _ _
  · decide +kernel
  · decide +kernel

/-- The hypotheses of C111-C113 hold for it: the table of all three cells is built. -/
example (root : Pt → Pt → Pt → Pt → Pt → ℚ × ℚ) :
    ∃ rows, delaunayTable Demo.mesh root 5 none [Demo.cellA, Demo.cellB, Demo.cellC] = .ok rows := by
  refine (delaunay_fails_iff Demo.mesh Demo.mesh_good.1 root 5 _ ?_).2 ?_
  · intro c hc t ht
    simp only [List.mem_cons, List.not_mem_nil, or_false] at hc
    rcases hc with rfl | rfl | rfl <;> cases ht <;> decide
  · intro c hc t ht _
    refine ⟨2, ⟨Demo.cellB, by simp, _, rfl, Or.inl rfl⟩, ?_⟩
    simp only [List.mem_cons, List.not_mem_nil, or_false] at hc
    rcases hc with rfl | rfl | rfl <;> cases ht <;> decide

/-- **C113**, concrete: a target that lies in the last triangle only is never interpolated. -/
example (root : Pt → Pt → Pt → Pt → Pt → ℚ × ℚ) :
    delaunayTable Demo.mesh root 5 none [Demo.cellC, Demo.cellC] = .error .indexError := by
  refine (delaunay_fails_iff Demo.mesh Demo.mesh_good.1 root 5 _ ?_).1 ?_
  · intro c hc t ht
    simp only [List.mem_cons, List.not_mem_nil, or_false, or_self] at hc
    subst hc
    cases ht
    decide
  · refine ⟨Demo.cellC, by simp, 2, rfl, rfl, ?_⟩
    rintro u ⟨c, hc, T, hT, hu⟩
    simp only [List.mem_cons, List.not_mem_nil, or_false, or_self] at hc
    subst hc
    cases hT
    rcases hu with h | h | h <;> cases h
    decide

/-! ## Exactness -/

/-- **C116** (`_partial`: grids that are not global and whose coordinates are not rescaled, i.e. rotated source grids; an
exact solver). A field that is affine in latitude and longitude is reproduced in every cell inside the triangulation,
whatever its order and the pairs formed. For regular source grids the latitude is rescaled for the triangles only, so
that the two kinds of cells reproduce different fields. -/
theorem delaunay_planes_partial (M : Mesh) (hM : Spec.Proper M) (hplain : M.scaled = M.plain)
    (root : Pt → Pt → Pt → Pt → Pt → ℚ × ℚ) (n : Nat)
    (cells : List DCell) (rows : List (List (Num × Option Nat))) (h : delaunayTable M root n none cells = .ok rows)
    (A B C m : ℚ) (v : Arr n) (hv : ∀ k : Fin n, v.data k = .fin (A * (M.plain k).lat + B * (M.plain k).lon + C))
    (out : List Num) (ho : scipyWeighted v (.fin m) (rows.map (stored n)) = .ok out)
    (i t : Nat) (c : DCell) (T : Tri) (x : Num) (hc : cells[i]? = some c) (hx : out[i]? = some x)
    (ht : c.tri = some t) (hT : M.tris[t]? = some T) (hf : c.far = false) (hq : c.q = c.p)
    (hn : ∀ T ∈ M.tris, T.v0 < n ∧ T.v1 < n ∧ T.v2 < n)
    (hroot : ∀ U ∈ M.tris, ∀ p1 p2 p3 p4 : Corner,
      clockwise ((unique (T.ids ++ U.ids)).map fun i => ⟨M.plain i, i⟩) = some (p1, p2, p3, p4) →
      (0 ≤ (root c.p p1.pt p2.pt p3.pt p4.pt).1 ∧ (root c.p p1.pt p2.pt p3.pt p4.pt).1 ≤ 1) ∧
      (0 ≤ (root c.p p1.pt p2.pt p3.pt p4.pt).2 ∧ (root c.p p1.pt p2.pt p3.pt p4.pt).2 ≤ 1) ∧
      alphaBeta c.p p1.pt p2.pt p3.pt p4.pt (root c.p p1.pt p2.pt p3.pt p4.pt) = (0, 0)) :
    x = .fin (A * c.p.lat + B * c.p.lon + C) := by
  obtain ⟨hl, hg⟩ := C60_scipy_weighted v _ _ out ho
  have hi' : i < rows.length := by
    have := (List.getElem?_eq_some_iff.1 hx).1
    rw [hl, List.length_map] at this
    exact this
  have hrow : rows[i]? = some rows[i] := List.getElem?_eq_getElem hi'
  generalize rows[i] = row at hrow
  have hsr : (rows.map (stored n))[i]? = some (stored n row) := by rw [List.getElem?_map, hrow]; rfl
  obtain ⟨hx1, -, -⟩ := hg i _ x hsr hx
  obtain ⟨P, q1, q2, q3, q4⟩ := delaunay_pairs h
  obtain ⟨T', raw, h1, h2, -, h4⟩ := q4 i c row hc hrow
  have : T' = T := by
    unfold Mesh.rowOf at h1
    rw [ht] at h1
    dsimp only at h1
    rw [hT] at h1
    cases h1; rfl
  subst this
  obtain rfl := remapRow_none h2
  have hTm := List.mem_of_getElem? hT
  have hcol := hM T' hTm
  have hval : ∀ k : Nat, k < n → Spec.valueAt v (.fin m) k = .fin (A * (M.plain k).lat + B * (M.plain k).lon + C) := by
    intro k hk
    unfold Spec.valueAt
    rw [dif_pos hk, hv ⟨k, hk⟩]
  have hend : Spec.valueAt v (.fin m) n = .fin m := by
    unfold Spec.valueAt
    rw [dif_neg (by omega)]
  obtain ⟨n0, n1, n2⟩ := hn T' hTm
  rw [hx1]
  rcases h4 t ht hf with ⟨hrw, -⟩ | ⟨u, U, hu, hU, hqr⟩
  · obtain ⟨b1, b2, b3, hbe, hs, -, -, haff, -, -⟩ := barycentric_weights _ _ _ c.q hcol
    have := haff A B C
    rw [hplain, hq] at this
    rw [hrw]
    unfold triRow4
    rw [hbe]
    simp only [stored, List.map_cons, List.map_nil, List.sum_cons, List.sum_nil, Option.getD_some, Option.getD_none,
      hval _ n0, hval _ n1, hval _ n2, hend, Num.fin_mul, Num.zero_def, Num.fin_add]
    congr 1
    linarith
  · have hUm := List.mem_of_getElem? hU
    obtain ⟨p1, p2, p3, p4, w1, w2, w3, w4, hcl, hw, hrow', hco, hpts⟩ := quadRow_spec hqr
    obtain ⟨r1, r2, r3⟩ := hroot U hUm p1 p2 p3 p4 hcl
    obtain ⟨w1', w2', w3', w4', hw', -, -, -, -, -, -, -, -, -, -, -, haff⟩ :=
      bilinear_weights (root c.p p1.pt p2.pt p3.pt p4.pt) p1.pt p2.pt p3.pt p4.pt c.p 0 0 0 0
    rw [hw] at hw'
    cases hw'
    have := haff r1 r2 r3 A B C
    have hlt : ∀ k ∈ [p1.ix, p2.ix, p3.ix, p4.ix], k < n := by
      intro k hk
      obtain ⟨m0, m1, m2⟩ := hn U hUm
      rcases (hco.2.2 k).1 hk with (h | h | h) | (h | h | h) <;> omega
    rw [hpts p1 (by simp), hpts p2 (by simp), hpts p3 (by simp), hpts p4 (by simp)] at this
    rw [hrow']
    simp only [stored, List.map_cons, List.map_nil, List.sum_cons, List.sum_nil, Option.getD_some,
      hval _ (hlt p1.ix (by simp)), hval _ (hlt p2.ix (by simp)), hval _ (hlt p3.ix (by simp)),
      hval _ (hlt p4.ix (by simp)), Num.fin_mul, Num.zero_def, Num.fin_add]
    congr 1
    linarith

end PyG2P
