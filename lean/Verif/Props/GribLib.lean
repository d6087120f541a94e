import Verif.Model.GribLib
import Verif.Props.TableApply
import Mathlib.Tactic.FieldSimp
import Mathlib.Tactic.Positivity

/-! # C63–C66 — tables made with the GRIB library -/

namespace PyG2P
open GribLib

namespace Spec

/-- A target cell with coordinates: its longitude is a number above -1e10 that is not the missing value. -/
def HasCoords (mv : Num) (c : Cell) : Prop := ∃ x : ℚ, c.lon = .fin x ∧ -10000000000 < x ∧ c.lon ≠ mv

instance (mv : Num) (c : Cell) : Decidable (HasCoords mv c) :=
  match h : c.lon with
  | .nan => isFalse (by rintro ⟨x, hx, -⟩; rw [h] at hx; cases hx)
  | .fin x => decidable_of_iff (-10000000000 < x ∧ c.lon ≠ mv) (by
      constructor
      · rintro ⟨a, b⟩; exact ⟨x, h, a, b⟩
      · rintro ⟨y, hy, a, b⟩; rw [h] at hy; cases hy; exact ⟨a, b⟩)

/-- The rows a table should have, in the order of the cells: row and column of a cell with coordinates that was
found in the source grid, and what was found for exactly these coordinates. -/
def tableEntries {α : Type} (find : Num → Num → Option α) (mv : Num) (cols : Nat) (cells : List Cell) :
    List ((Nat × Nat) × α) :=
  cells.zipIdx.filterMap fun p =>
    if HasCoords mv p.1 then (find p.1.lat p.1.lon).map fun a => ((p.2 / cols, p.2 % cols), a) else none

end Spec

theorem valid_iff (mv : Num) (c : Cell) : valid mv c = true ↔ Spec.HasCoords mv c := by
  unfold valid Spec.HasCoords bound
  cases hl : c.lon with
  | nan => simp [Num.ltb]
  | fin x =>
    cases mv with
    | nan => simp [Num.ltb, Num.neb]
    | fin y => simp [Num.ltb, Num.neb]

theorem looksNearest_iff (mv : Num) (c : Cell) (h : c.lon ≠ .nan) :
    looksNearest mv c = true ↔ Spec.HasCoords mv c := by
  unfold looksNearest Spec.HasCoords bound
  cases hl : c.lon with
  | nan => exact absurd hl h
  | fin x =>
    have e : (¬ (x < -10000000000 ∨ x = -10000000000)) ↔ -10000000000 < x := by
      rw [← le_iff_lt_or_eq, not_le]
    cases mv with
    | nan => simp [Num.ltb, Num.neb, ← e]
    | fin y => simp [Num.ltb, Num.neb, ← e, and_assoc]

theorem looksInvdist_iff (mv : Num) (c : Cell) (h : c.lon ≠ .nan) (h' : c.lon ≠ .fin (-10000000000)) :
    looksInvdist mv c = true ↔ Spec.HasCoords mv c := by
  rw [← looksNearest_iff mv c h]
  unfold looksInvdist looksNearest bound
  rw [decide_eq_false h', Bool.or_false]

/-- Dropping the entries that were not set, array by array. -/
theorem filter_map_entries {α β γ : Type} (l : List α) (g : α → Option β) (f : α → γ) (h : β → γ) (P : γ → Bool)
    (h0 : ∀ a ∈ l, g a = none → ∃ z, f a = z ∧ P z = false) (h1 : ∀ a ∈ l, ∀ b, g a = some b → f a = h b ∧ P (h b) = true) :
    (l.map f).filter P = (l.filterMap g).map h := by
  induction l with
  | nil => rfl
  | cons a l ih =>
    have ih := ih (fun a ha => h0 a (List.mem_cons_of_mem _ ha)) (fun a ha => h1 a (List.mem_cons_of_mem _ ha))
    rw [List.map_cons, List.filter_cons, List.filterMap_cons]
    cases hg : g a with
    | none =>
      obtain ⟨z, e1, e2⟩ := h0 a (by simp) hg
      rw [e1, e2]
      exact ih
    | some b =>
      obtain ⟨e1, e2⟩ := h1 a (by simp) b hg
      rw [e1, if_pos e2, ih]
      rfl

theorem nat_ne_fill (n : Nat) : decide ((n : Int) ≠ fillInt) = true := by
  unfold fillInt
  exact decide_eq_true (by omega)

theorem nearestLoop_ok {step : Nat} {find : Num → Num → Option Nat} {mv : Num} {cols : Nat} :
    ∀ (cells : List Cell) (i : Nat) (rs : List (Int × Int × Int)), nearestLoop step find mv cols i cells = .ok rs →
      rs = (cells.zipIdx i).map fun p =>
        nearestCell find mv (cellPos mv cols p.2 p.1).1 (cellPos mv cols p.2 p.1).2 p.1 := by
  intro cells
  induction cells with
  | nil => intro i rs h; cases h; rfl
  | cons c cs ih =>
    intro i rs h
    unfold nearestLoop at h
    split at h
    · cases h
    · obtain ⟨rest, h1, h2⟩ := bind_ok_iff.1 h
      cases h2
      rw [ih _ _ h1, List.zipIdx_cons, List.map_cons]

theorem nearestLoop_run {step : Nat} (hs : step ≠ 0) (find : Num → Num → Option Nat) (mv : Num) (cols : Nat) :
    ∀ (cells : List Cell) (i : Nat), ∃ rs, nearestLoop step find mv cols i cells = .ok rs := by
  intro cells
  induction cells with
  | nil => intro i; exact ⟨_, rfl⟩
  | cons c cs ih =>
    intro i
    obtain ⟨rs, h⟩ := ih (i + 1)
    unfold nearestLoop
    rw [if_neg hs, h]
    exact ⟨_, rfl⟩

/-- The table of the results of all cells. -/
theorem nearestTbl_entries (find : Num → Num → Option Nat) (mv : Num) (cols : Nat) (cells : List Cell)
    (hnan : ∀ c ∈ cells, c.lon ≠ .nan) :
    nearestTbl (cells.zipIdx.map fun p =>
        nearestCell find mv (cellPos mv cols p.2 p.1).1 (cellPos mv cols p.2 p.1).2 p.1) =
      ((Spec.tableEntries find mv cols cells).map fun e => (e.1.1 : Int), (Spec.tableEntries find mv cols cells).map fun e => (e.1.2 : Int),
        (Spec.tableEntries find mv cols cells).map fun e => (e.2 : Int)) := by
  have cell : ∀ p ∈ cells.zipIdx,
      ((if Spec.HasCoords mv p.1 then (find p.1.lat p.1.lon).map fun a => ((p.2 / cols, p.2 % cols), a) else none) = none →
        nearestCell find mv (cellPos mv cols p.2 p.1).1 (cellPos mv cols p.2 p.1).2 p.1 = (fillInt, fillInt, fillInt)) ∧
      ∀ b, (if Spec.HasCoords mv p.1 then (find p.1.lat p.1.lon).map fun a => ((p.2 / cols, p.2 % cols), a) else none) = some b →
        nearestCell find mv (cellPos mv cols p.2 p.1).1 (cellPos mv cols p.2 p.1).2 p.1 =
          ((b.1.1 : Int), (b.1.2 : Int), (b.2 : Int)) := by
    intro p hp
    have hc : p.1 ∈ cells := by
      obtain ⟨c, i⟩ := p
      exact List.fst_mem_of_mem_zipIdx hp
    have hl := looksNearest_iff mv p.1 (hnan _ hc)
    have hv := valid_iff mv p.1
    unfold nearestCell cellPos
    by_cases hh : Spec.HasCoords mv p.1
    · rw [if_pos hh, if_pos (hl.2 hh), if_pos (hv.2 hh)]
      cases find p.1.lat p.1.lon with
      | none => exact ⟨fun _ => rfl, fun b hb => by cases hb⟩
      | some k => exact ⟨(fun h => by cases h), (fun b hb => by cases hb; rfl)⟩
    · rw [if_neg hh, if_neg (fun h => hh (hl.1 h)), if_neg (fun h => hh (hv.1 h))]
      exact ⟨fun _ => rfl, fun b hb => by cases hb⟩
  have bad : decide (fillInt ≠ fillInt) = false := by decide
  unfold nearestTbl notFill Spec.tableEntries
  rw [List.map_map, List.map_map, List.map_map]
  refine Prod.ext ?_ (Prod.ext ?_ ?_)
  · refine filter_map_entries _ _ _ (fun e : (Nat × Nat) × Nat => (e.1.1 : Int)) _ (fun p hp hn => ?_) (fun p hp b hb => ?_)
    · exact ⟨fillInt, by simp only [Function.comp]; rw [(cell p hp).1 hn], bad⟩
    · simp only [Function.comp]; rw [(cell p hp).2 b hb]; exact ⟨rfl, nat_ne_fill _⟩
  · refine filter_map_entries _ _ _ (fun e : (Nat × Nat) × Nat => (e.1.2 : Int)) _ (fun p hp hn => ?_) (fun p hp b hb => ?_)
    · exact ⟨fillInt, by simp only [Function.comp]; rw [(cell p hp).1 hn], bad⟩
    · simp only [Function.comp]; rw [(cell p hp).2 b hb]; exact ⟨rfl, nat_ne_fill _⟩
  · refine filter_map_entries _ _ _ (fun e : (Nat × Nat) × Nat => (e.2 : Int)) _ (fun p hp hn => ?_) (fun p hp b hb => ?_)
    · exact ⟨fillInt, by simp only [Function.comp]; rw [(cell p hp).1 hn], bad⟩
    · simp only [Function.comp]; rw [(cell p hp).2 b hb]; exact ⟨rfl, nat_ne_fill _⟩

/-- **C63** (the table; the part that holds: no longitude is NaN). A nearest neighbour table consists of exactly the
rows of `Spec.tableEntries`: position of a cell with coordinates, index found for the coordinates of this cell. What is
missing: NaN longitudes, see `grib_nearest_nan`. -/
theorem grib_nearest_table_partial (tty : Bool) (find : Num → Num → Option Nat) (mv : Num) (cols : Nat)
    (cells : List Cell) (hnan : ∀ c ∈ cells, c.lon ≠ .nan) (xs ys idxs : List Int)
    (h : gribNearest tty find mv cols cells = .ok (xs, ys, idxs)) :
    ∃ E : List ((Nat × Nat) × Nat), E = Spec.tableEntries find mv cols cells ∧
      xs = E.map (fun e => (e.1.1 : Int)) ∧ ys = E.map (fun e => (e.1.2 : Int)) ∧ idxs = E.map (fun e => (e.2 : Int)) := by
  unfold gribNearest at h
  obtain ⟨rs, h1, h2⟩ := bind_ok_iff.1 h
  have h2 := Except.ok.inj h2
  rw [nearestLoop_ok _ _ _ h1, nearestTbl_entries find mv cols cells hnan] at h2
  refine ⟨_, rfl, ?_, ?_, ?_⟩
  · exact (congrArg (·.1) h2).symm
  · exact (congrArg (·.2.1) h2).symm
  · exact (congrArg (·.2.2) h2).symm

/-- **C63 is violated** for NaN longitudes (a target map whose missing value is NaN): the index found for the NaN cell
stays in the table while its row and column are dropped; the arrays no longer fit together. -/
theorem grib_nearest_nan : ∃ (find : Num → Num → Option Nat) (cells : List Cell) (xs ys idxs : List Int),
    gribNearestParallel find .nan 1 2 cells = .ok (xs, ys, idxs) ∧ xs.length = 1 ∧ ys.length = 1 ∧ idxs = [7, 3] :=
  ⟨fun _ lon => if lon = .nan then some 7 else some 3, [⟨.fin 1, .nan⟩, ⟨.fin 1, .fin 2⟩], [0], [1], [7, 3],
    by decide +kernel, rfl, rfl, rfl⟩

/-! ## The output of a nearest table -/

/-- Positions in `Spec.tableEntries` are those of the cells. -/
theorem mem_entries {α : Type} {find : Num → Num → Option α} {mv : Num} {cols : Nat} {cells : List Cell}
    {e : (Nat × Nat) × α} : e ∈ Spec.tableEntries find mv cols cells ↔ ∃ (i : Nat) (c : Cell), cells[i]? = some c ∧
      Spec.HasCoords mv c ∧ find c.lat c.lon = some e.2 ∧ e.1 = (i / cols, i % cols) := by
  unfold Spec.tableEntries
  rw [List.mem_filterMap]
  constructor
  · rintro ⟨⟨c, i⟩, hm, he⟩
    have hi := (List.mem_zipIdx_iff_getElem?.1 hm)
    dsimp only at he hi
    split at he
    · rename_i hc
      cases hf : find c.lat c.lon with
      | none => rw [hf] at he; cases he
      | some a =>
        rw [hf] at he
        cases he
        exact ⟨i, c, hi, hc, hf, rfl⟩
    · cases he
  · rintro ⟨i, c, hi, hc, hf, he⟩
    refine ⟨(c, i), List.mem_zipIdx_iff_getElem?.2 hi, ?_⟩
    dsimp only
    rw [if_pos hc, hf]
    simp only [Option.map_some, Option.some.injEq]
    rw [← he]

theorem pos_inj {cols i j : Nat} (h1 : i / cols = j / cols) (h2 : i % cols = j % cols) : i = j := by
  rw [← Nat.div_add_mod i cols, ← Nat.div_add_mod j cols, h1, h2]

/-- **C63** (the output). The table is used for source field `v` (`tbl`: its rows, with the target cells numbered in
`ravel` order). A target cell gets the value of the source point found for its coordinates (missing if that point is
masked); it is missing if it has no coordinates or lies outside the source grid. -/
theorem grib_nearest_output_partial {n m : Nat} (tty : Bool) (find : Num → Num → Option Nat) (mv : Num) (cols : Nat)
    (cells : List Cell) (hnan : ∀ c ∈ cells, c.lon ≠ .nan) (xs ys idxs : List Int)
    (h : gribNearest tty find mv cols cells = .ok (xs, ys, idxs))
    (tbl : List (Fin m × Nat)) (hx : xs = tbl.map fun e => ((e.1.val / cols : Nat) : Int))
    (hy : ys = tbl.map fun e => ((e.1.val % cols : Nat) : Int)) (hi : idxs = tbl.map fun e => (e.2 : Int))
    (v : Arr n) (mvOut : Num) (r : Fin m → Num) (hr : TableApply.gribNearest v mvOut tbl = .ok r) (c : Fin m) (cell : Cell)
    (hcell : cells[c.val]? = some cell) :
    (¬ Spec.HasCoords mv cell ∨ find cell.lat cell.lon = none → r c = mvOut) ∧
    (∀ k, Spec.HasCoords mv cell → find cell.lat cell.lon = some k →
      ∃ hk : k < n, r c = if v.masked ⟨k, hk⟩ then mvOut else v.data ⟨k, hk⟩) := by
  obtain ⟨E, hE, ex, ey, ei⟩ := grib_nearest_table_partial tty find mv cols cells hnan xs ys idxs h
  have key : tbl.map (fun e => ((e.1.val / cols, e.1.val % cols), e.2)) = E := by
    have h1 : tbl.map (fun e => e.1.val / cols) = E.map (fun e => e.1.1) := by
      have := hx.symm.trans ex
      have := congrArg (List.map Int.toNat) this
      simpa only [List.map_map, Function.comp_def, Int.toNat_natCast] using this
    have h2 : tbl.map (fun e => e.1.val % cols) = E.map (fun e => e.1.2) := by
      have := hy.symm.trans ey
      have := congrArg (List.map Int.toNat) this
      simpa only [List.map_map, Function.comp_def, Int.toNat_natCast] using this
    have h3 : tbl.map (fun e => e.2) = E.map (fun e => e.2) := by
      have := hi.symm.trans ei
      have := congrArg (List.map Int.toNat) this
      simpa only [List.map_map, Function.comp_def, Int.toNat_natCast] using this
    clear hx hy hi ex ey ei hr hE h
    induction tbl generalizing E with
    | nil =>
      cases E with
      | nil => rfl
      | cons e E => cases h1
    | cons t tbl ih =>
      cases E with
      | nil => cases h1
      | cons e E =>
        obtain ⟨a1, a2⟩ := List.cons.inj h1
        obtain ⟨b1, b2⟩ := List.cons.inj h2
        obtain ⟨c1, c2⟩ := List.cons.inj h3
        dsimp only at a1 b1 c1
        rw [List.map_cons, ih E a2 b2 c2, a1, b1, c1]
  have memtbl : ∀ e ∈ tbl, ∃ c', cells[e.1.val]? = some c' ∧ Spec.HasCoords mv c' ∧ find c'.lat c'.lon = some e.2 := by
    intro e he
    have : ((e.1.val / cols, e.1.val % cols), e.2) ∈ Spec.tableEntries find mv cols cells := by
      rw [← hE, ← key]
      exact List.mem_map.2 ⟨e, he, rfl⟩
    obtain ⟨i, c', h1, h2, h3, h4⟩ := mem_entries.1 this
    have hie : e.1.val = i := pos_inj (congrArg (·.1) h4) (congrArg (·.2) h4)
    exact ⟨c', by rw [hie]; exact h1, h2, h3⟩
  obtain ⟨a1, a2⟩ := C60_grib_nearest v mvOut tbl r hr c
  constructor
  · intro hno
    refine a1 ?_
    intro e he hec
    obtain ⟨c', h1, h2, h3⟩ := memtbl e he
    rw [hec, hcell] at h1
    cases h1
    rcases hno with hno | hno
    · exact hno h2
    · rw [hno] at h3; cases h3
  · intro k hc hk
    refine a2 k ?_
    have hmem : ((c.val / cols, c.val % cols), k) ∈ E := by
      rw [hE]
      exact mem_entries.2 ⟨c.val, cell, hcell, hc, hk, rfl⟩
    rw [← key] at hmem
    obtain ⟨e, he, hee⟩ := List.mem_map.1 hmem
    have hec : e = (c, k) := by
      have h1 := congrArg (fun p => p.1.1) hee
      have h2 := congrArg (fun p => p.1.2) hee
      have h3 := congrArg (fun p => p.2) hee
      exact Prod.ext (Fin.ext (pos_inj h1 h2)) h3
    have hall : ∀ e ∈ tbl.filter (fun e => e.1 = c), e = (c, k) := by
      intro e' he'
      obtain ⟨h1, h2⟩ := List.mem_filter.1 he'
      have h2 : e'.1 = c := by simpa using h2
      obtain ⟨c', h3, h4, h5⟩ := memtbl e' h1
      rw [h2, hcell] at h3
      cases h3
      rw [hk] at h5
      exact Prod.ext h2 (Option.some.inj h5).symm
    unfold Spec.rowFor
    have hne : tbl.filter (fun e => e.1 = c) ≠ [] := by
      intro hn
      have : e ∈ tbl.filter (fun e => e.1 = c) := List.mem_filter.2 ⟨he, by rw [hec]; simp⟩
      rw [hn] at this
      cases this
    rw [List.getLast?_eq_some_getLast hne]
    exact congrArg some (hall _ (List.getLast_mem hne))

/-- Non-vacuity of C63 (with the table of a grid of one row of 250 cells without coordinates but for two, one of them
outside the source grid). -/
example : gribNearest true (fun _ lon => if lon = .fin 5 then none else some 8) (.fin (-9999)) 250
    (⟨.fin 1, .fin 5⟩ :: ⟨.fin 1, .fin 6⟩ :: List.replicate 248 ⟨.fin 1, .fin (-9999)⟩) = .ok ([0], [1], [8]) := by
  decide +kernel

end PyG2P
