import Verif.Props.GribLib
import Mathlib.Algebra.BigOperators.Fin
import Mathlib.Algebra.BigOperators.Field

/-! # C64, C65, C66 — inverse distance tables, parallel versions, sizes -/

namespace PyG2P
open GribLib

namespace Spec

/-- Some of the four points is at distance 0. -/
def Hit (p : Fin 4 → Nat × ℚ) : Prop := ∃ j, (p j).2 = 0

instance (p : Fin 4 → Nat × ℚ) : Decidable (Hit p) := inferInstanceAs (Decidable (∃ j, (p j).2 = 0))

/-- The weight of point `k`: proportional to the inverse distance. -/
def weight (p : Fin 4 → Nat × ℚ) (k : Fin 4) : ℚ := (1 / (p k).2) / ∑ j, 1 / (p j).2

end Spec

theorem coeffs_no_hit {p : Fin 4 → Nat × ℚ} (h : ¬ Spec.Hit p) :
    coeffsIdxs p = (fun k => 1 / (p k).2, fun k => (p k).1) := by
  unfold coeffsIdxs
  rw [List.find?_eq_none.2 (by intro k _ hk; exact h ⟨k, by simpa using hk⟩)]

theorem coeffs_hit {p : Fin 4 → Nat × ℚ} (h : Spec.Hit p) : ∃ e : Fin 4, (p e).2 = 0 ∧ (∀ j, (p j).2 = 0 → e ≤ j) ∧
    coeffsIdxs p = (fun k => if k = 0 then 1 else 0, fun k => if k = 0 then (p e).1 else 0) := by
  unfold coeffsIdxs
  cases hf : (List.finRange 4).find? fun k => decide ((p k).2 = 0) with
  | none =>
    obtain ⟨j, hj⟩ := h
    exact absurd (List.find?_eq_none.1 hf j (List.mem_finRange j)) (by simp [hj])
  | some e =>
    refine ⟨e, by simpa using List.find?_some hf, ?_, rfl⟩
    intro j hj
    by_contra hlt
    have hlt : j < e := not_le.1 hlt
    obtain ⟨-, as, bs, h1, h2⟩ := List.find?_eq_some_iff_append.1 hf
    have hmem : j ∈ as := by
      have hj' : j ∈ as ++ e :: bs := by rw [← h1]; exact List.mem_finRange j
      rcases List.mem_append.1 hj' with h | h
      · exact h
      · exfalso
        have hs : (as ++ e :: bs).Pairwise (· < ·) := by
          rw [← h1]
          exact List.pairwise_lt_finRange 4
        have := (List.pairwise_append.1 hs).2.1
        rcases List.mem_cons.1 h with h | h
        · exact absurd h (ne_of_lt hlt)
        · exact absurd ((List.pairwise_cons.1 this).1 j h) (not_lt.2 hlt.le)
    have := h2 j hmem
    simp [hj] at this

theorem zipWith_map_map {α β γ δ : Type} (f : β → γ → δ) (a : α → β) (b : α → γ) (l : List α) :
    List.zipWith f (l.map a) (l.map b) = l.map fun x => f (a x) (b x) := by
  induction l with
  | nil => rfl
  | cons x l ih => rw [List.map_cons, List.map_cons, List.zipWith_cons_cons, ih, List.map_cons]

theorem invdistLoop_ok {step : Nat} {find : Num → Num → Option (Fin 4 → Nat × ℚ)} {mv : Num} {cols : Nat} :
    ∀ (cells : List Cell) (i : Nat) (rs : List InvCell), invdistLoop step find mv cols i cells = .ok rs →
      rs = (cells.zipIdx i).map fun p =>
        invdistCell find mv (cellPos mv cols p.2 p.1).1 (cellPos mv cols p.2 p.1).2 p.1 := by
  intro cells
  induction cells with
  | nil => intro i rs h; cases h; rfl
  | cons c cs ih =>
    intro i rs h
    unfold invdistLoop at h
    split at h
    · cases h
    · obtain ⟨rest, h1, h2⟩ := bind_ok_iff.1 h
      cases h2
      rw [ih _ _ h1, List.zipIdx_cons, List.map_cons]

theorem invdistLoop_run {step : Nat} (hs : step ≠ 0) (find : Num → Num → Option (Fin 4 → Nat × ℚ)) (mv : Num)
    (cols : Nat) : ∀ (cells : List Cell) (i : Nat), ∃ rs, invdistLoop step find mv cols i cells = .ok rs := by
  intro cells
  induction cells with
  | nil => intro i; exact ⟨_, rfl⟩
  | cons c cs ih =>
    intro i
    obtain ⟨rs, h⟩ := ih (i + 1)
    unfold invdistLoop
    rw [if_neg hs, h]
    exact ⟨_, rfl⟩

/-- The inverse distances never sum to zero. -/
theorem coeffs_sum_pos (p : Fin 4 → Nat × ℚ) (hp : ∀ k, 0 ≤ (p k).2) :
    (∀ k, 0 ≤ (coeffsIdxs p).1 k) ∧ 0 < ∑ k, (coeffsIdxs p).1 k := by
  by_cases h : Spec.Hit p
  · obtain ⟨e, -, -, he⟩ := coeffs_hit h
    rw [he]
    constructor
    · intro k; dsimp only; split_ifs <;> norm_num
    · simp
  · rw [coeffs_no_hit h]
    have hpos : ∀ k, 0 < (p k).2 := fun k => lt_of_le_of_ne (hp k) (fun hk => h ⟨k, hk.symm⟩)
    refine ⟨fun k => le_of_lt (by have := hpos k; positivity), ?_⟩
    exact Finset.sum_pos (fun k _ => by have := hpos k; positivity) ⟨0, Finset.mem_univ _⟩

/-- The table of the results of all cells. -/
theorem invTbl_entries (find : Num → Num → Option (Fin 4 → Nat × ℚ)) (mv : Num) (cols : Nat) (cells : List Cell)
    (hnan : ∀ c ∈ cells, c.lon ≠ .nan ∧ c.lon ≠ .fin (-10000000000))
    (hd : ∀ lat lon p, find lat lon = some p → ∀ k, 0 ≤ (p k).2) :
    ∀ tbl, tbl = invTbl (cells.zipIdx.map fun p =>
        invdistCell find mv (cellPos mv cols p.2 p.1).1 (cellPos mv cols p.2 p.1).2 p.1) →
      tbl.xs = (Spec.tableEntries find mv cols cells).map (fun e => (e.1.1 : Int)) ∧
      tbl.ys = (Spec.tableEntries find mv cols cells).map (fun e => (e.1.2 : Int)) ∧
      (∀ k, tbl.idx k = (Spec.tableEntries find mv cols cells).map (fun e => ((coeffsIdxs e.2).2 k : Int))) ∧
      (∀ k, tbl.coeff k = (Spec.tableEntries find mv cols cells).map
        (fun e => Num.fin ((coeffsIdxs e.2).1 k / ∑ j, (coeffsIdxs e.2).1 j))) := by
  rintro tbl rfl
  have cell : ∀ p ∈ cells.zipIdx,
      ((if Spec.HasCoords mv p.1 then (find p.1.lat p.1.lon).map fun a => ((p.2 / cols, p.2 % cols), a) else none) = none →
        invdistCell find mv (cellPos mv cols p.2 p.1).1 (cellPos mv cols p.2 p.1).2 p.1 =
          ⟨fillInt, fillInt, fun _ => fillInt, fun _ => .nan⟩) ∧
      ∀ b, (if Spec.HasCoords mv p.1 then (find p.1.lat p.1.lon).map fun a => ((p.2 / cols, p.2 % cols), a) else none) = some b →
        invdistCell find mv (cellPos mv cols p.2 p.1).1 (cellPos mv cols p.2 p.1).2 p.1 =
          ⟨(b.1.1 : Int), (b.1.2 : Int), fun k => ((coeffsIdxs b.2).2 k : Int), fun k => .fin ((coeffsIdxs b.2).1 k)⟩ := by
    intro p hp
    have hc : p.1 ∈ cells := by
      obtain ⟨c, i⟩ := p
      exact List.fst_mem_of_mem_zipIdx hp
    have hl := looksInvdist_iff mv p.1 (hnan _ hc).1 (hnan _ hc).2
    have hv := valid_iff mv p.1
    unfold invdistCell cellPos
    by_cases hh : Spec.HasCoords mv p.1
    · rw [if_pos hh, if_pos (hl.2 hh), if_pos (hv.2 hh)]
      cases find p.1.lat p.1.lon with
      | none => exact ⟨fun _ => rfl, fun b hb => by cases hb⟩
      | some k => exact ⟨(fun h => by cases h), (fun b hb => by cases hb; rfl)⟩
    · rw [if_neg hh, if_neg (fun h => hh (hl.1 h)), if_neg (fun h => hh (hv.1 h))]
      exact ⟨fun _ => rfl, fun b hb => by cases hb⟩
  have bad : decide (fillInt ≠ fillInt) = false := by decide
  have hinv : ∀ k, notNan ((cells.zipIdx.map fun p =>
        invdistCell find mv (cellPos mv cols p.2 p.1).1 (cellPos mv cols p.2 p.1).2 p.1).map fun r => r.inv k) =
      (Spec.tableEntries find mv cols cells).map fun e => Num.fin ((coeffsIdxs e.2).1 k) := by
    intro k
    unfold notNan Spec.tableEntries
    rw [List.map_map]
    refine filter_map_entries _ _ _ (fun e : (Nat × Nat) × (Fin 4 → Nat × ℚ) => Num.fin ((coeffsIdxs e.2).1 k)) _
      (fun p hp hn => ?_) (fun p hp b hb => ?_)
    · exact ⟨.nan, by simp only [Function.comp]; rw [(cell p hp).1 hn], rfl⟩
    · simp only [Function.comp]; rw [(cell p hp).2 b hb]; exact ⟨rfl, rfl⟩
  refine ⟨?_, ?_, ?_, ?_⟩
  · unfold invTbl notFill Spec.tableEntries
    dsimp only
    rw [List.map_map]
    refine filter_map_entries _ _ _ (fun e : (Nat × Nat) × (Fin 4 → Nat × ℚ) => (e.1.1 : Int)) _
      (fun p hp hn => ?_) (fun p hp b hb => ?_)
    · exact ⟨fillInt, by simp only [Function.comp]; rw [(cell p hp).1 hn], bad⟩
    · simp only [Function.comp]; rw [(cell p hp).2 b hb]; exact ⟨rfl, nat_ne_fill _⟩
  · unfold invTbl notFill Spec.tableEntries
    dsimp only
    rw [List.map_map]
    refine filter_map_entries _ _ _ (fun e : (Nat × Nat) × (Fin 4 → Nat × ℚ) => (e.1.2 : Int)) _
      (fun p hp hn => ?_) (fun p hp b hb => ?_)
    · exact ⟨fillInt, by simp only [Function.comp]; rw [(cell p hp).1 hn], bad⟩
    · simp only [Function.comp]; rw [(cell p hp).2 b hb]; exact ⟨rfl, nat_ne_fill _⟩
  · intro k
    unfold invTbl notFill Spec.tableEntries
    dsimp only
    rw [List.map_map]
    refine filter_map_entries _ _ _ (fun e : (Nat × Nat) × (Fin 4 → Nat × ℚ) => ((coeffsIdxs e.2).2 k : Int)) _
      (fun p hp hn => ?_) (fun p hp b hb => ?_)
    · exact ⟨fillInt, by simp only [Function.comp]; rw [(cell p hp).1 hn], bad⟩
    · simp only [Function.comp]; rw [(cell p hp).2 b hb]; exact ⟨rfl, nat_ne_fill _⟩
  · intro k
    unfold invTbl
    dsimp only
    rw [hinv 0, hinv 1, hinv 2, hinv 3, hinv k, zipWith_map_map, zipWith_map_map, zipWith_map_map, zipWith_map_map]
    refine List.map_congr_left fun e he => ?_
    obtain ⟨i, c, -, -, hf, -⟩ := mem_entries.1 he
    have hpos := (coeffs_sum_pos e.2 (hd _ _ _ hf)).2
    rw [Num.fin_add, Num.fin_add, Num.fin_add]
    have hs : (coeffsIdxs e.2).1 0 + (coeffsIdxs e.2).1 1 + (coeffsIdxs e.2).1 2 + (coeffsIdxs e.2).1 3 =
        ∑ j, (coeffsIdxs e.2).1 j := by
      rw [Fin.sum_univ_four]
    rw [hs, Num.fin_div_of_ne _ (ne_of_gt hpos)]

/-- **C64** (the part that holds: no longitude is NaN or exactly -1e10; distances are not negative). The arrays of an
inverse distance table have one entry for each row of `Spec.tableEntries`, in the same order: position of the cell, and
four indexes and weights. The weights are non-negative and sum to one. Without a point at distance 0 the indexes are
those of the four points, the weights are proportional to the inverse distances. With a point at distance 0 the
first weight is 1, for the first such point, the others are 0. What is missing: NaN longitudes (`grib_nearest_nan`
shows the same arithmetic) and the longitude -1e10 (`grib_invdist_bound`). -/
theorem grib_invdist_table_partial (tty : Bool) (find : Num → Num → Option (Fin 4 → Nat × ℚ)) (mv : Num) (cols : Nat)
    (cells : List Cell) (hnan : ∀ c ∈ cells, c.lon ≠ .nan ∧ c.lon ≠ .fin (-10000000000))
    (hd : ∀ lat lon p, find lat lon = some p → ∀ k, 0 ≤ (p k).2) (tbl : InvTbl)
    (h : gribInvdist tty find mv cols cells = .ok tbl) :
    ∃ (E : List ((Nat × Nat) × (Fin 4 → Nat × ℚ))) (src : (Fin 4 → Nat × ℚ) → Fin 4 → Nat)
      (wt : (Fin 4 → Nat × ℚ) → Fin 4 → ℚ), E = Spec.tableEntries find mv cols cells ∧
      tbl.xs = E.map (fun e => (e.1.1 : Int)) ∧ tbl.ys = E.map (fun e => (e.1.2 : Int)) ∧
      (∀ k, tbl.idx k = E.map fun e => (src e.2 k : Int)) ∧ (∀ k, tbl.coeff k = E.map fun e => .fin (wt e.2 k)) ∧
      (∀ e ∈ E, (∀ k, 0 ≤ wt e.2 k) ∧ ∑ k, wt e.2 k = 1) ∧
      (∀ p k, ¬ Spec.Hit p → src p k = (p k).1 ∧ wt p k = Spec.weight p k) ∧
      (∀ p, Spec.Hit p → ∃ e, (p e).2 = 0 ∧ (∀ j, (p j).2 = 0 → e ≤ j) ∧ src p 0 = (p e).1 ∧
        (∀ k, k ≠ 0 → src p k = 0) ∧ wt p 0 = 1 ∧ ∀ k, k ≠ 0 → wt p k = 0) := by
  unfold gribInvdist at h
  obtain ⟨rs, h1, h2⟩ := bind_ok_iff.1 h
  have h2 := Except.ok.inj h2
  rw [invdistLoop_ok _ _ _ h1] at h2
  obtain ⟨a1, a2, a3, a4⟩ := invTbl_entries find mv cols cells hnan hd tbl h2.symm
  refine ⟨_, fun p => (coeffsIdxs p).2, fun p k => (coeffsIdxs p).1 k / ∑ j, (coeffsIdxs p).1 j, rfl, a1, a2, a3, a4,
    ?_, ?_, ?_⟩
  · intro e he
    obtain ⟨i, c, -, -, hf, -⟩ := mem_entries.1 he
    obtain ⟨b1, b2⟩ := coeffs_sum_pos e.2 (hd _ _ _ hf)
    refine ⟨fun k => div_nonneg (b1 k) b2.le, ?_⟩
    rw [← Finset.sum_div, div_self (ne_of_gt b2)]
  · intro p k hp
    dsimp only
    rw [coeffs_no_hit hp]
    exact ⟨rfl, rfl⟩
  · intro p hp
    obtain ⟨e, h1, h2, h3⟩ := coeffs_hit hp
    refine ⟨e, h1, h2, ?_⟩
    dsimp only
    rw [h3]
    dsimp only
    refine ⟨if_pos rfl, fun k hk => if_neg hk, ?_, fun k hk => ?_⟩
    · simp
    · simp [hk]

/-- A nearer point has a larger weight. -/
theorem weight_antitone (p : Fin 4 → Nat × ℚ) (hp : ∀ k, 0 < (p k).2) (j k : Fin 4) (h : (p j).2 ≤ (p k).2) :
    Spec.weight p k ≤ Spec.weight p j := by
  unfold Spec.weight
  have hs : 0 < ∑ j, 1 / (p j).2 := Finset.sum_pos (fun k _ => by have := hp k; positivity) ⟨0, Finset.mem_univ _⟩
  exact div_le_div_of_nonneg_right (one_div_le_one_div_of_le (hp j) h) hs.le

/-- Non-vacuity of C64: one row of two cells, the second one on a grid point. -/
example : ∃ tbl : InvTbl, gribInvdistParallel (fun _ lon => some fun k => (k.val + 10, if lon = .fin 6 ∧ k = 2 then 0 else k.val + 1))
    (.fin (-9999)) 1 2 [⟨.fin 1, .fin 5⟩, ⟨.fin 1, .fin 6⟩] = .ok tbl ∧ tbl.xs = [0, 0] ∧ tbl.ys = [0, 1] ∧
    tbl.idx 0 = [10, 12] ∧ tbl.idx 1 = [11, 0] ∧ tbl.coeff 0 = [.fin (12/25), .fin 1] ∧ tbl.coeff 3 = [.fin (3/25), .fin 0] :=
  ⟨_, rfl, by decide +kernel, by decide +kernel, by decide +kernel, by decide +kernel, by decide +kernel, by decide +kernel⟩

/-- **C64 is violated** for a longitude of exactly -1e10: four indexes and weights are stored for it, but no row and
no column. -/
theorem grib_invdist_bound : ∃ (find : Num → Num → Option (Fin 4 → Nat × ℚ)) (cells : List Cell) (tbl : InvTbl),
    gribInvdistParallel find (.fin (-9999)) 1 2 cells = .ok tbl ∧ tbl.xs = [0] ∧ tbl.ys = [1] ∧
    tbl.idx 0 = [7, 3] ∧ (tbl.coeff 0).length = 2 :=
  ⟨fun _ lon => some fun k => (if lon = .fin 5 then 3 else 7, k.val + 1), [⟨.fin 1, .fin (-10000000000)⟩, ⟨.fin 1, .fin 5⟩], _,
    rfl, by decide +kernel, by decide +kernel, by decide +kernel, by decide +kernel⟩

/-- The four points of a row. -/
def Spec.rowPoint {m : Nat} (e : TableApply.Row m) (k : Fin 4) : Nat × Num :=
  if k = 0 then e.p1 else if k = 1 then e.p2 else if k = 2 then e.p3 else e.p4

/-- **C64** (the output). The table is used for source field `v` without missing values (`rows`: its rows, with the
target cells numbered in `ravel` order). A target cell with coordinates found in the source grid gets
* the value of the point at distance 0, if there is one,
* else the mean of the values of its four points, weighted by inverse distance;
other cells are missing. -/
theorem grib_invdist_output_partial {n m : Nat} (tty : Bool) (find : Num → Num → Option (Fin 4 → Nat × ℚ)) (mv : Num)
    (cols : Nat) (cells : List Cell) (hnan : ∀ c ∈ cells, c.lon ≠ .nan ∧ c.lon ≠ .fin (-10000000000))
    (hd : ∀ lat lon p, find lat lon = some p → ∀ k, 0 ≤ (p k).2) (tbl : InvTbl)
    (h : gribInvdist tty find mv cols cells = .ok tbl)
    (rows : List (TableApply.Row m)) (hx : tbl.xs = rows.map fun e => ((e.cell.val / cols : Nat) : Int))
    (hy : tbl.ys = rows.map fun e => ((e.cell.val % cols : Nat) : Int))
    (hi : ∀ k, tbl.idx k = rows.map fun e => ((Spec.rowPoint e k).1 : Int))
    (hw : ∀ k, tbl.coeff k = rows.map fun e => (Spec.rowPoint e k).2)
    (val : Nat → ℚ) (v : Arr n) (hv : ∀ i : Fin n, v.data i = .fin (val i) ∧ v.masked i = false) (mvOut : Num)
    (r : Fin m → Num) (hr : TableApply.gribInvdist v mvOut rows = .ok r) (c : Fin m) (cell : Cell)
    (hcell : cells[c.val]? = some cell) :
    (¬ Spec.HasCoords mv cell ∨ find cell.lat cell.lon = none → r c = mvOut) ∧
    (∀ p, Spec.HasCoords mv cell → find cell.lat cell.lon = some p →
      (¬ Spec.Hit p → r c = .fin (∑ k, Spec.weight p k * val (p k).1)) ∧
      (Spec.Hit p → ∃ e, (p e).2 = 0 ∧ r c = .fin (val (p e).1))) := by
  obtain ⟨E, src, wt, hE, ex, ey, ei, ew, hsum, hno, hhit⟩ :=
    grib_invdist_table_partial tty find mv cols cells hnan hd tbl h
  -- the rows are the entries
  have key : ∀ j : Nat, rows[j]?.map (fun e => ((e.cell.val / cols, e.cell.val % cols), fun k => Spec.rowPoint e k)) =
      E[j]?.map (fun e => (e.1, fun k => (src e.2 k, Num.fin (wt e.2 k)))) := by
    intro j
    have h1 := congrArg (fun l : List Int => l[j]?) (hx.symm.trans ex)
    have h2 := congrArg (fun l : List Int => l[j]?) (hy.symm.trans ey)
    have h3 := fun k => congrArg (fun l : List Int => l[j]?) ((hi k).symm.trans (ei k))
    have h4 := fun k => congrArg (fun l : List Num => l[j]?) ((hw k).symm.trans (ew k))
    simp only [List.getElem?_map] at h1 h2 h3 h4
    cases hj : rows[j]? with
    | none =>
      rw [hj] at h1
      cases hj' : E[j]? with
      | none => rfl
      | some e => rw [hj'] at h1; cases h1
    | some e =>
      rw [hj] at h1 h2
      cases hj' : E[j]? with
      | none => rw [hj'] at h1; cases h1
      | some e' =>
        rw [hj'] at h1 h2
        simp only [Option.map_some, Option.some.injEq, Nat.cast_inj] at h1 h2 ⊢
        refine Prod.ext (Prod.ext h1 h2) ?_
        funext k
        have a := h3 k
        have b := h4 k
        rw [hj, hj'] at a b
        simp only [Option.map_some, Option.some.injEq, Nat.cast_inj] at a b
        exact Prod.ext a b
  have memrows : ∀ e ∈ rows, ∃ c' p, cells[e.cell.val]? = some c' ∧ Spec.HasCoords mv c' ∧ find c'.lat c'.lon = some p ∧
      ∀ k, Spec.rowPoint e k = (src p k, .fin (wt p k)) := by
    intro e he
    obtain ⟨j, hj⟩ := List.getElem?_of_mem he
    have hk := key j
    rw [hj] at hk
    cases hj' : E[j]? with
    | none => rw [hj'] at hk; cases hk
    | some e' =>
      rw [hj'] at hk
      simp only [Option.map_some, Option.some.injEq, Prod.mk.injEq] at hk
      have hm : e' ∈ Spec.tableEntries find mv cols cells := by rw [← hE]; exact List.mem_of_getElem? hj'
      obtain ⟨i, c', b1, b2, b3, b4⟩ := mem_entries.1 hm
      have hie : e.cell.val = i := by
        have := hk.1.trans b4
        exact pos_inj (congrArg (·.1) this) (congrArg (·.2) this)
      exact ⟨c', e'.2, by rw [hie]; exact b1, b2, b3, fun k => congrFun hk.2 k⟩
  obtain ⟨a1, a2⟩ := C60_grib_invdist v mvOut rows r hr c
  constructor
  · intro hnone
    refine a1 ?_
    intro e he hec
    obtain ⟨c', p, h1, h2, h3, -⟩ := memrows e he
    rw [hec, hcell] at h1
    cases h1
    rcases hnone with hn | hn
    · exact hn h2
    · rw [hn] at h3; cases h3
  · intro p hc hp
    have hmem : ((c.val / cols, c.val % cols), p) ∈ E := by
      rw [hE]
      exact mem_entries.2 ⟨c.val, cell, hcell, hc, hp, rfl⟩
    obtain ⟨j, hj⟩ := List.getElem?_of_mem hmem
    have hkj := key j
    rw [hj] at hkj
    obtain ⟨e0, he0, hcell0⟩ : ∃ e ∈ rows, e.cell = c := by
      cases hj' : rows[j]? with
      | none => rw [hj'] at hkj; cases hkj
      | some e =>
        rw [hj'] at hkj
        simp only [Option.map_some, Option.some.injEq, Prod.mk.injEq] at hkj
        exact ⟨e, List.mem_of_getElem? hj', Fin.ext (pos_inj hkj.1.1 hkj.1.2)⟩
    have hne : rows.filter (fun e => e.cell = c) ≠ [] := by
      intro hn
      have : e0 ∈ rows.filter (fun e => e.cell = c) := List.mem_filter.2 ⟨he0, by rw [hcell0]; simp⟩
      rw [hn] at this
      cases this
    obtain ⟨e, he⟩ : ∃ e, Spec.rowFor TableApply.Row.cell rows c = some e :=
      ⟨_, List.getLast?_eq_some_getLast hne⟩
    have hemem : e ∈ rows.filter (fun e => e.cell = c) := List.mem_of_getLast? he
    obtain ⟨he1, he2⟩ := List.mem_filter.1 hemem
    have he2 : e.cell = c := by simpa using he2
    obtain ⟨c', p', g1, g2, g3, g4⟩ := memrows e he1
    rw [he2, hcell] at g1
    cases g1
    rw [hp] at g3
    cases g3
    obtain ⟨l1, l2, l3, l4, hrc⟩ := a2 e he
    have q1 : e.p1 = (src p 0, .fin (wt p 0)) := g4 0
    have q2 : e.p2 = (src p 1, .fin (wt p 1)) := g4 1
    have q3 : e.p3 = (src p 2, .fin (wt p 2)) := g4 2
    have q4 : e.p4 = (src p 3, .fin (wt p 3)) := g4 3
    rw [if_neg (by rw [(hv _).2, (hv _).2, (hv _).2, (hv _).2]; decide)] at hrc
    rw [(hv _).1, (hv _).1, (hv _).1, (hv _).1] at hrc
    dsimp only at hrc
    rw [q1, q2, q3, q4] at hrc
    dsimp only at hrc
    rw [Num.fin_mul, Num.fin_mul, Num.fin_mul, Num.fin_mul, Num.fin_add, Num.fin_add, Num.fin_add] at hrc
    constructor
    · intro hn
      rw [hrc, Fin.sum_univ_four]
      rw [(hno p 0 hn).1, (hno p 1 hn).1, (hno p 2 hn).1, (hno p 3 hn).1, (hno p 0 hn).2, (hno p 1 hn).2, (hno p 2 hn).2,
        (hno p 3 hn).2]
      congr 1
      ring
    · intro hh
      obtain ⟨e', b1, -, b3, -, b5, b6⟩ := hhit p hh
      refine ⟨e', b1, ?_⟩
      rw [hrc, b3, b5, b6 1 (by decide), b6 2 (by decide), b6 3 (by decide)]
      congr 1
      ring

/-- The weighted mean lies between the smallest and the largest of the four values. -/
theorem weight_bounds (p : Fin 4 → Nat × ℚ) (hp : ∀ k, 0 < (p k).2) (val : Nat → ℚ) (lo hi : ℚ)
    (h : ∀ k, lo ≤ val (p k).1 ∧ val (p k).1 ≤ hi) :
    lo ≤ ∑ k, Spec.weight p k * val (p k).1 ∧ ∑ k, Spec.weight p k * val (p k).1 ≤ hi := by
  have hs : 0 < ∑ j, 1 / (p j).2 := Finset.sum_pos (fun k _ => by have := hp k; positivity) ⟨0, Finset.mem_univ _⟩
  have hw : ∀ k, 0 ≤ Spec.weight p k := fun k => div_nonneg (by have := hp k; positivity) hs.le
  have h1 : ∑ k, Spec.weight p k = 1 := by
    unfold Spec.weight
    rw [← Finset.sum_div, div_self (ne_of_gt hs)]
  constructor
  · calc lo = ∑ k, Spec.weight p k * lo := by rw [← Finset.sum_mul, h1, one_mul]
      _ ≤ _ := Finset.sum_le_sum fun k _ => mul_le_mul_of_nonneg_left (h k).1 (hw k)
  · calc _ ≤ ∑ k, Spec.weight p k * hi := Finset.sum_le_sum fun k _ => mul_le_mul_of_nonneg_left (h k).2 (hw k)
      _ = hi := by rw [← Finset.sum_mul, h1, one_mul]

/-! ## C65 -/

theorem pieces_flatten {α : Type} : ∀ (ns : List Nat) (l : List α), ns.sum = l.length → (pieces ns l).flatten = l := by
  intro ns
  induction ns with
  | nil =>
    intro l h
    rw [List.length_eq_zero_iff.1 h.symm]
    rfl
  | cons n ns ih =>
    intro l h
    unfold pieces
    rw [List.flatten_cons, ih, List.take_append_drop]
    rw [List.length_drop, ← h, List.sum_cons]
    omega

theorem pieces_ne_nil {α : Type} : ∀ (ns : List Nat) (l : List α), ns.sum = l.length → (∀ n ∈ ns, 0 < n) →
    ∀ c ∈ pieces ns l, c ≠ [] := by
  intro ns
  induction ns with
  | nil => intro l _ _ c hc; cases hc
  | cons n ns ih =>
    intro l h hn c hc
    unfold pieces at hc
    rw [List.sum_cons] at h
    rcases List.mem_cons.1 hc with rfl | hc
    · have := hn n (by simp)
      intro hnil
      have := congrArg List.length hnil
      rw [List.length_take, List.length_nil] at this
      omega
    · exact ih (l.drop n) (by rw [List.length_drop]; omega) (fun m hm => hn m (by simp [hm])) c hc

theorem split_sum (len k : Nat) (hk : 0 < k) :
    ((List.range k).map fun j => len / k + if j < len % k then 1 else 0).sum = len := by
  have key : ∀ (m : Nat) (r : Nat), ((List.range m).map fun j => len / k + if j < r then 1 else 0).sum =
      m * (len / k) + min m r := by
    intro m r
    induction m with
    | zero => simp
    | succ m ih =>
      rw [List.range_succ, List.map_append, List.sum_append, ih]
      simp only [List.map_cons, List.map_nil, List.sum_cons, List.sum_nil]
      have : (m + 1) * (len / k) = m * (len / k) + len / k := by ring
      rw [this]
      split_ifs with h <;> omega
  rw [key, Nat.min_eq_right (Nat.mod_lt _ hk).le]
  exact Nat.div_add_mod len k

/-- Splitting into chunks and putting the results together is mapping, whatever the number of chunks (as long as none
is empty). -/
theorem runChunks_flatten {α β : Type} (step : α → β) (l : List α) (k : Nat) (hk : 0 < k) (hl : k ≤ l.length) :
    ∃ rs, runChunks step l k = .ok rs ∧ rs.flatten = l.map step := by
  unfold runChunks arraySplit
  rw [if_neg (by omega)]
  have hsum := split_sum l.length k hk
  have hne := pieces_ne_nil _ l hsum (by
    intro n hn
    obtain ⟨j, -, rfl⟩ := List.mem_map.1 hn
    have : 0 < l.length / k := Nat.div_pos hl hk
    omega)
  have hfl := pieces_flatten _ l hsum
  generalize pieces _ l = ps at hne hfl
  have hmap : ∀ ps : List (List α), (∀ c ∈ ps, c ≠ []) → ps.mapM (applyChunk step) = .ok (ps.map (List.map step)) := by
    intro ps
    induction ps with
    | nil => intro _; rfl
    | cons c ps ih =>
      intro h
      rw [List.mapM_cons, ih (fun d hd => h d (by simp [hd]))]
      unfold applyChunk
      rw [if_neg (h c (by simp))]
      rfl
  refine ⟨ps.map (List.map step), ?_, ?_⟩
  · dsimp only [bind, Except.bind]
    exact hmap ps hne
  · rw [← List.map_flatten, hfl]

/-- **C65.** When the serial version makes a table, the parallel version makes the same one, for both methods; the
target grid has `rows` rows (the number of chunks), not more than cells. -/
theorem parallel_eq_serial (tty : Bool) (mv : Num) (rows cols : Nat) (cells : List Cell) (hr : 0 < rows)
    (hc : rows ≤ cells.length) :
    (∀ find tbl, gribNearest tty find mv cols cells = .ok tbl → gribNearestParallel find mv rows cols cells = .ok tbl) ∧
    (∀ find tbl, gribInvdist tty find mv cols cells = .ok tbl → gribInvdistParallel find mv rows cols cells = .ok tbl) := by
  have hlen : rows ≤ (stack mv cols cells).length := by
    unfold stack
    rw [List.length_map, List.length_zipIdx]
    exact hc
  constructor
  · intro find tbl h
    unfold gribNearest at h
    obtain ⟨rs, h1, h2⟩ := bind_ok_iff.1 h
    rw [nearestLoop_ok _ _ _ h1] at h2
    obtain ⟨qs, h3, h4⟩ := runChunks_flatten (fun e : Cell × Int × Int => nearestCell find mv e.2.1 e.2.2 e.1)
      (stack mv cols cells) rows hr hlen
    unfold gribNearestParallel
    rw [h3]
    dsimp only [bind, Except.bind]
    rw [h4, ← h2]
    unfold stack
    rw [List.map_map]
    rfl
  · intro find tbl h
    unfold gribInvdist at h
    obtain ⟨rs, h1, h2⟩ := bind_ok_iff.1 h
    rw [invdistLoop_ok _ _ _ h1] at h2
    obtain ⟨qs, h3, h4⟩ := runChunks_flatten (fun e : Cell × Int × Int => invdistCell find mv e.2.1 e.2.2 e.1)
      (stack mv cols cells) rows hr hlen
    unfold gribInvdistParallel
    rw [h3]
    dsimp only [bind, Except.bind]
    rw [h4, ← h2]
    unfold stack
    rw [List.map_map]
    rfl

/-- Non-vacuity of C65: 300 cells in two rows. -/
example : gribNearest true (fun _ _ => some 8) (.fin (-9999)) 150
      (⟨.fin 1, .fin 5⟩ :: List.replicate 298 ⟨.fin 1, .fin (-9999)⟩ ++ [⟨.fin 1, .fin 5⟩]) = .ok ([0, 1], [0, 149], [8, 8]) ∧
    gribNearestParallel (fun _ _ => some 8) (.fin (-9999)) 2 150
      (⟨.fin 1, .fin 5⟩ :: List.replicate 298 ⟨.fin 1, .fin (-9999)⟩ ++ [⟨.fin 1, .fin 5⟩]) = .ok ([0, 1], [0, 149], [8, 8]) := by
  constructor <;> decide +kernel

/-! ## C66 -/

/-- **C66** (the part that holds for the GRIB methods): from 250 cells on, and for no cells, the serial versions make
a table. What is missing: `small_target_fails`. -/
theorem table_created_partial (tty : Bool) (mv : Num) (cols : Nat) (cells : List Cell)
    (hl : cells.length = 0 ∨ 250 ≤ cells.length) :
    (∀ find, ∃ tbl, gribNearest tty find mv cols cells = .ok tbl) ∧
    (∀ find, ∃ tbl, gribInvdist tty find mv cols cells = .ok tbl) := by
  rcases hl with hl | hl
  · rw [List.length_eq_zero_iff.1 hl]
    exact ⟨fun _ => ⟨_, rfl⟩, fun _ => ⟨_, rfl⟩⟩
  · have hs : progressStep tty cells.length ≠ 0 := by
      unfold progressStep
      have : 0 < cells.length / 250 := Nat.div_pos hl (by norm_num)
      split <;> omega
    constructor
    · intro find
      obtain ⟨rs, h⟩ := nearestLoop_run hs find mv cols cells 0
      unfold gribNearest
      rw [h]
      exact ⟨_, rfl⟩
    · intro find
      obtain ⟨rs, h⟩ := invdistLoop_run hs find mv cols cells 0
      unfold gribInvdist
      rw [h]
      exact ⟨_, rfl⟩

/-- **C66** (the part that holds for the parallel GRIB methods): they make a table for every target with at least one
row and one column. -/
theorem parallel_created_partial (mv : Num) (rows cols : Nat) (cells : List Cell) (hr : 0 < rows)
    (hc : rows ≤ cells.length) :
    (∀ find, ∃ tbl, gribNearestParallel find mv rows cols cells = .ok tbl) ∧
    (∀ find, ∃ tbl, gribInvdistParallel find mv rows cols cells = .ok tbl) := by
  have hlen : rows ≤ (stack mv cols cells).length := by
    unfold stack
    rw [List.length_map, List.length_zipIdx]
    exact hc
  constructor
  · intro find
    obtain ⟨qs, h3, -⟩ := runChunks_flatten (fun e : Cell × Int × Int => nearestCell find mv e.2.1 e.2.2 e.1)
      (stack mv cols cells) rows hr hlen
    unfold gribNearestParallel
    rw [h3]
    exact ⟨_, rfl⟩
  · intro find
    obtain ⟨qs, h3, -⟩ := runChunks_flatten (fun e : Cell × Int × Int => invdistCell find mv e.2.1 e.2.2 e.1)
      (stack mv cols cells) rows hr hlen
    unfold gribInvdistParallel
    rw [h3]
    exact ⟨_, rfl⟩

/-- **C66 is violated**: for a target of 1 to 249 cells every serial table creation raises `ZeroDivisionError`
(`i % progress_step`), with or without a terminal. -/
theorem small_target_fails (tty : Bool) (mv : Num) (cols : Nat) (cells : List Cell) (h1 : 0 < cells.length)
    (h2 : cells.length < 250) :
    (∀ find, gribNearest tty find mv cols cells = .error .zeroDivision) ∧
    (∀ find, gribInvdist tty find mv cols cells = .error .zeroDivision) := by
  have hs : progressStep tty cells.length = 0 := by
    unfold progressStep
    rw [Nat.div_eq_of_lt h2]
    split <;> rfl
  cases hc : cells with
  | nil => rw [hc] at h1; cases h1
  | cons c cs =>
    rw [hc] at hs
    constructor
    · intro find
      unfold gribNearest nearestLoop
      rw [if_pos hs]
      rfl
    · intro find
      unfold gribInvdist invdistLoop
      rw [if_pos hs]
      rfl

end PyG2P
