import Verif.Model.ScipyCdd
import Verif.Props.TableIds
import Verif.Props.TablesHistory
import Verif.Props.ScipyNear
import Mathlib.Tactic.FieldSimp
import Mathlib.Tactic.LinearCombination

/-! # C87, C67, C89-C91: options and lookups of the CDD method -/

namespace PyG2P
open ScipyLib
open Store

namespace Spec

/-- Cell `k` of an axis with first centre `origin` and step `res` (centre minus next centre) contains `x`. -/
def CellContains (origin res : ℚ) (k : Nat) (x : ℚ) : Prop := |x - (origin - k * res)| < |res| / 2

end Spec

/-! ## C87 -/

theorem cddIndex_range (origin res x : ℚ) (len : Nat) (h : 0 < len) :
    0 ≤ cddIndex origin res x len ∧ cddIndex origin res x len < len := by
  unfold cddIndex
  constructor
  · exact le_max_left _ _
  · refine max_lt (by exact_mod_cast h) (lt_of_le_of_lt (min_le_right _ _) (by omega))

theorem cellContains_quotient (origin res x : ℚ) (k : Nat) (hres : res ≠ 0) :
    Spec.CellContains origin res k x ↔ |(origin - x) / res - k| < 1 / 2 := by
  unfold Spec.CellContains
  have hr : 0 < |res| := abs_pos.2 hres
  have e : x - (origin - k * res) = -(((origin - x) / res - k) * res) := by field_simp; ring
  rw [e, abs_neg, abs_mul]
  constructor
  · intro h
    have : |(origin - x) / res - k| * |res| < (1 / 2) * |res| := by linarith
    exact lt_of_mul_lt_mul_right this hr.le
  · intro h
    have := mul_lt_mul_of_pos_right h hr
    linarith

theorem truncInt_eq_floor (q : ℚ) (k : Nat) (h1 : (k : ℚ) ≤ q) (h2 : q < k + 1) : Str.truncInt q = k := by
  have h0 : ¬ q < 0 := not_lt.2 (le_trans (by positivity) h1)
  unfold Str.truncInt
  rw [if_neg h0, Int.floor_eq_iff]
  exact ⟨by exact_mod_cast h1, by exact_mod_cast h2⟩

/-- **C87 (part)**: for a station in the half of cell `k` that lies away from the first cell the index is `k`. -/
theorem cdd_cell_partial (origin res x : ℚ) (len k : Nat) (hres : res ≠ 0) (hk : k < len)
    (hc : Spec.CellContains origin res k x) (hhalf : (k : ℚ) ≤ (origin - x) / res) :
    cddIndex origin res x len = k := by
  rw [cellContains_quotient _ _ _ _ hres, abs_lt] at hc
  unfold cddIndex
  rw [truncInt_eq_floor _ k hhalf (by linarith [hc.2])]
  rw [min_eq_left (by omega), max_eq_right (by omega)]

/-- A station in the first cell always has index 0. -/
theorem cdd_cell_first (origin res x : ℚ) (len : Nat) (hres : res ≠ 0) (hk : 0 < len)
    (hc : Spec.CellContains origin res 0 x) : cddIndex origin res x len = 0 := by
  rw [cellContains_quotient _ _ _ _ hres, abs_lt] at hc
  push_cast at hc
  have : Str.truncInt ((origin - x) / res) = 0 := by
    by_cases h : (origin - x) / res < 0
    · unfold Str.truncInt
      rw [if_pos h, neg_eq_zero, Int.floor_eq_iff]
      push_cast
      constructor <;> linarith [hc.1]
    · exact truncInt_eq_floor _ 0 (by push_cast; exact not_lt.1 h) (by push_cast; linarith [hc.2])
  unfold cddIndex
  rw [this, min_eq_left (by omega), max_self]

/-- **C87 is violated**: for a station in the other half of cell `k + 1` the value of cell `k` is used. -/
theorem cdd_cell_shifted (origin res x : ℚ) (len k : Nat) (hres : res ≠ 0) (hk : k + 1 < len)
    (hc : Spec.CellContains origin res (k + 1) x) (hhalf : (origin - x) / res < (k + 1 : ℕ)) :
    cddIndex origin res x len = k := by
  rw [cellContains_quotient _ _ _ _ hres, abs_lt] at hc
  push_cast at hc hhalf
  unfold cddIndex
  rw [truncInt_eq_floor _ k (by linarith [hc.1]) hhalf]
  rw [min_eq_left (by omega), max_eq_right (by omega)]

theorem cddValue_eq (cdd : List (List ℚ)) (org : ℚ × ℚ × ℚ × ℚ) (s : ℚ × ℚ) (k l : Nat) (row : List ℚ) (v : ℚ)
    (hk : cddIndex org.1 org.2.1 s.1 cdd.length = k) (hrow : cdd[k]? = some row)
    (hl : cddIndex org.2.2.1 org.2.2.2 s.2 row.length = l) (hv : row[l]? = some v) :
    cddValue cdd org s = .ok v := by
  unfold cddValue
  dsimp only
  rw [hk, Int.toNat_natCast, List.getD_eq_getElem?_getD, hrow]
  dsimp only [Option.getD_some]
  rw [hl, Int.toNat_natCast, hv]

/-- Every station, wherever it is, has a value as long as the map has cells: no lookup fails. -/
theorem cdd_value_total (cdd : List (List ℚ)) (hc : cdd ≠ []) (hr : ∀ r ∈ cdd, r ≠ []) (org : ℚ × ℚ × ℚ × ℚ)
    (s : ℚ × ℚ) : ∃ r ∈ cdd, ∃ v ∈ r, cddValue cdd org s = .ok v := by
  obtain ⟨h0, h1⟩ := cddIndex_range org.1 org.2.1 s.1 cdd.length (List.length_pos_of_ne_nil hc)
  obtain ⟨k, hk⟩ := Int.eq_ofNat_of_zero_le h0
  have hk1 : k < cdd.length := by omega
  have hne := hr _ (List.getElem_mem hk1)
  obtain ⟨g0, g1⟩ := cddIndex_range org.2.2.1 org.2.2.2 s.2 cdd[k].length (List.length_pos_of_ne_nil hne)
  obtain ⟨l, hl⟩ := Int.eq_ofNat_of_zero_le g0
  have hl1 : l < cdd[k].length := by omega
  exact ⟨cdd[k], List.getElem_mem hk1, cdd[k][l], List.getElem_mem hl1,
    cddValue_eq cdd org s k l _ _ hk (List.getElem?_eq_getElem hk1) hl (List.getElem?_eq_getElem hl1)⟩

/-- **C87 (part)**: in the quarter of a cell that lies away from the first row and the first column the value is that of
the cell of the station. -/
theorem cdd_value_partial (cdd : List (List ℚ)) (a da o d_o : ℚ) (s : ℚ × ℚ) (k l : Nat) (row : List ℚ) (v : ℚ)
    (hda : da ≠ 0) (hdo : d_o ≠ 0) (hrow : cdd[k]? = some row) (hv : row[l]? = some v)
    (h1 : Spec.CellContains a da k s.1) (h2 : Spec.CellContains o d_o l s.2)
    (g1 : (k : ℚ) ≤ (a - s.1) / da) (g2 : (l : ℚ) ≤ (o - s.2) / d_o) :
    cddValue cdd (a, da, o, d_o) s = .ok v :=
  cddValue_eq cdd _ s k l row v (cdd_cell_partial a da s.1 _ k hda (List.getElem?_eq_some_iff.1 hrow).1 h1 g1) hrow
    (cdd_cell_partial o d_o s.2 _ l hdo (List.getElem?_eq_some_iff.1 hv).1 h2 g2) hv

/-- **C87 is violated** in the opposite quarter: the value of the cell one row up and one column left. -/
theorem cdd_value_shifted (cdd : List (List ℚ)) (a da o d_o : ℚ) (s : ℚ × ℚ) (k l : Nat) (row : List ℚ) (v : ℚ)
    (hda : da ≠ 0) (hdo : d_o ≠ 0) (hrow : cdd[k]? = some row) (hv : row[l]? = some v)
    (hk : k + 1 < cdd.length) (hl : l + 1 < row.length)
    (h1 : Spec.CellContains a da (k + 1) s.1) (h2 : Spec.CellContains o d_o (l + 1) s.2)
    (g1 : (a - s.1) / da < (k + 1 : ℕ)) (g2 : (o - s.2) / d_o < (l + 1 : ℕ)) :
    cddValue cdd (a, da, o, d_o) s = .ok v :=
  cddValue_eq cdd _ s k l row v (cdd_cell_shifted a da s.1 _ k hda hk h1 g1) hrow
    (cdd_cell_shifted o d_o s.2 _ l hdo hl h2 g2) hv

/-- Row `k` and column `l` of a map whose first two row centres are `a`, `a'` and first two column centres `o`, `o'`
contain the place `s`. -/
def Spec.InMapCell (a a' o o' : ℚ) (k l : Nat) (s : ℚ × ℚ) : Prop :=
  |s.1 - (a + k * (a' - a))| < |a' - a| / 2 ∧ |s.2 - (o + l * (o' - o))| < |o' - o| / 2

/-- `s` is not on the side of the centre of row `k` (column `l`) where the first row (column) is. -/
def Spec.AwayFromFirst (a a' o o' : ℚ) (k l : Nat) (s : ℚ × ℚ) : Prop :=
  0 ≤ (s.1 - (a + k * (a' - a))) * (a' - a) ∧ 0 ≤ (s.2 - (o + l * (o' - o))) * (o' - o)

/-- `s` is on the side of the centres where the first row and the first column are. -/
def Spec.TowardsFirst (a a' o o' : ℚ) (k l : Nat) (s : ℚ × ℚ) : Prop :=
  (s.1 - (a + k * (a' - a))) * (a' - a) < 0 ∧ (s.2 - (o + l * (o' - o))) * (o' - o) < 0

theorem side_quotient (a a' x : ℚ) (k : Nat) (ha : a ≠ a') :
    ((k : ℚ) ≤ (a - x) / (a - a') ↔ 0 ≤ (x - (a + k * (a' - a))) * (a' - a)) := by
  have hd : a - a' ≠ 0 := sub_ne_zero.2 ha
  have hp : 0 < (a - a') ^ 2 := by positivity
  have e : (x - (a + k * (a' - a))) * (a' - a) = ((a - x) / (a - a') - k) * (a - a') ^ 2 := by field_simp; ring
  rw [e, ← sub_nonneg]
  constructor
  · intro h; exact mul_nonneg h hp.le
  · intro h; exact nonneg_of_mul_nonneg_left h hp

theorem cell_contains_map (a a' x : ℚ) (k : Nat) :
    Spec.CellContains a (a - a') k x ↔ |x - (a + k * (a' - a))| < |a' - a| / 2 := by
  unfold Spec.CellContains
  rw [abs_sub_comm a a', show a - k * (a - a') = a + k * (a' - a) by ring]

theorem newLookup_all {cdd : List (List ℚ)} {a a' o o' : ℚ} {ra ra' ro : List ℚ} {rows rows' : List (List ℚ)}
    {st : List (ℚ × ℚ)} {vs : List ℚ} (h : List.Forall₂ (fun s v => cddValue cdd (a, a - a', o, o - o') s = .ok v) st vs) :
    newLookup cdd ((a :: ra) :: (a' :: ra') :: rows) ((o :: o' :: ro) :: rows') st = .ok vs := by
  change (st.mapM (cddValue cdd (a, a - a', o, o - o')) : Py _) = .ok vs
  induction h with
  | nil => rfl
  | cons h _ ih => rw [List.mapM_cons, h, ih]; rfl

/-- **C87 (part, whole lookup)**: stations in the quarter of a cell that lies away from the first row and the first
column get the value of their own cell. The map is given by the coordinates of the target, whose first two rows have
the latitudes `a`, `a'` and whose first two columns the longitudes `o`, `o'`. -/
theorem cdd_lookup_partial (cdd : List (List ℚ)) (a a' o o' : ℚ) (ha : a ≠ a') (ho : o ≠ o') (ra ra' ro : List ℚ)
    (rows rows' : List (List ℚ)) (st : List (ℚ × ℚ)) (vs : List ℚ)
    (h : List.Forall₂ (fun s v => ∃ (k l : Nat) (row : List ℚ), cdd[k]? = some row ∧ row[l]? = some v ∧
      Spec.InMapCell a a' o o' k l s ∧ Spec.AwayFromFirst a a' o o' k l s) st vs) :
    newLookup cdd ((a :: ra) :: (a' :: ra') :: rows) ((o :: o' :: ro) :: rows') st = .ok vs := by
  refine newLookup_all (h.imp ?_)
  rintro s v ⟨k, l, row, hrow, hv, hc, hf⟩
  exact cdd_value_partial cdd a (a - a') o (o - o') s k l row v (sub_ne_zero.2 ha) (sub_ne_zero.2 ho) hrow hv
    ((cell_contains_map _ _ _ _).2 hc.1) ((cell_contains_map _ _ _ _).2 hc.2)
    ((side_quotient _ _ _ _ ha).2 hf.1) ((side_quotient _ _ _ _ ho).2 hf.2)

/-- **C87 is violated** (whole lookup): stations in the opposite quarter of the cell in row `k + 1` and column `l + 1` get
the value of the cell in row `k` and column `l`. -/
theorem cdd_lookup_shifted (cdd : List (List ℚ)) (a a' o o' : ℚ) (ha : a ≠ a') (ho : o ≠ o') (ra ra' ro : List ℚ)
    (rows rows' : List (List ℚ)) (st : List (ℚ × ℚ)) (vs : List ℚ)
    (h : List.Forall₂ (fun s v => ∃ (k l : Nat) (row : List ℚ), cdd[k]? = some row ∧ row[l]? = some v ∧
      k + 1 < cdd.length ∧ l + 1 < row.length ∧
      Spec.InMapCell a a' o o' (k + 1) (l + 1) s ∧ Spec.TowardsFirst a a' o o' (k + 1) (l + 1) s) st vs) :
    newLookup cdd ((a :: ra) :: (a' :: ra') :: rows) ((o :: o' :: ro) :: rows') st = .ok vs := by
  refine newLookup_all (h.imp ?_)
  rintro s v ⟨k, l, row, hrow, hv, hk, hl, hc, hf⟩
  exact cdd_value_shifted cdd a (a - a') o (o - o') s k l row v (sub_ne_zero.2 ha) (sub_ne_zero.2 ho) hrow hv hk hl
    ((cell_contains_map _ _ _ _).2 hc.1) ((cell_contains_map _ _ _ _).2 hc.2)
    (lt_of_not_ge fun hh => absurd ((side_quotient _ _ _ _ ha).1 hh) (not_le.2 hf.1))
    (lt_of_not_ge fun hh => absurd ((side_quotient _ _ _ _ ho).1 hh) (not_le.2 hf.2))

/-- **C87 is violated** with splits: for a block that starts at row `i` of a regular grid the origin is the one of the
block, so row `k - i` of the map is used for a station of row `k`. -/
theorem cdd_index_split (origin res x : ℚ) (len k i : Nat) (hres : res ≠ 0) (hk : k < len) (hi : i ≤ k)
    (hc : Spec.CellContains origin res k x) (hhalf : (k : ℚ) ≤ (origin - x) / res) :
    cddIndex (origin - i * res) res x len = (k - i : ℕ) := by
  have e : (origin - i * res - x) / res = (origin - x) / res - i := by field_simp; ring
  rw [cellContains_quotient _ _ _ _ hres, abs_lt] at hc
  have hcast : ((k - i : ℕ) : ℚ) = k - i := by push_cast [hi]; ring
  unfold cddIndex
  rw [e, truncInt_eq_floor _ (k - i) (by rw [hcast]; linarith) (by rw [hcast]; linarith [hc.2])]
  rw [min_eq_left (by omega), max_eq_right (by omega)]

/-- A map of 3 rows with latitudes 50, 49, 48 and 2 columns with longitudes 10, 11: a station at (48.8, 10.2) lies in
row 1, column 0, whose value is 3; one at (49.2, 11.2) in row 1, column 1, but gets the value 2 of row 0. -/
example : newLookup [[1, 2], [3, 4], [5, 6]] [[50, 50], [49, 49], [48, 48]] [[10, 11], [10, 11], [10, 11]]
    [(48 + 8 / 10, 10 + 2 / 10), (49 + 2 / 10, 11 + 2 / 10)] = .ok [3, 2] := by decide +kernel

example : Spec.CellContains 50 1 1 (48 + 8 / 10) ∧ ((1 : ℕ) : ℚ) ≤ (50 - (48 + 8 / 10)) / 1 ∧
    Spec.CellContains 50 1 1 (49 + 2 / 10) ∧ (50 - (49 + 2 / 10)) / 1 < ((0 + 1 : ℕ) : ℚ) ∧
    Spec.CellContains 10 (-1) 1 (11 + 2 / 10) := by
  unfold Spec.CellContains
  decide +kernel

/-! ## C67 -/

theorem splits_size_lt (n k : Nat) (hk : 2 ≤ k) (hn : k ≤ n) : 0 < n / k ∧ n / k < n := by
  constructor
  · exact Nat.div_pos hn (by omega)
  · exact Nat.div_lt_self (by omega) (by omega)

theorem interpolate_first_fails {τ W : Type} (nnear k : Nat) (f : List (List τ) → Py (ScipyLib.Part W)) (grid : List (List τ))
    (hk : 1 ≤ k) (hn : k ≤ grid.length) (e : PyErr) (hf : f (grid.take (grid.length / k)) = .error e) :
    interpolate nnear (some k) f grid = .error e := by
  unfold interpolate
  dsimp only
  have hpos : 0 < grid.length / k := Nat.div_pos hn (by omega)
  rw [if_neg (by omega), if_neg (by omega)]
  have hq : 0 < (grid.length + grid.length / k - 1) / (grid.length / k) := Nat.div_pos (by omega) hpos
  obtain ⟨m, hm⟩ : ∃ m, (grid.length + grid.length / k - 1) / (grid.length / k) = m + 1 := ⟨_, (Nat.succ_pred_eq_of_pos hq).symm⟩
  rw [hm, List.range_succ_eq_map]
  change ((splitLoop nnear _ f grid (_ :: _) : Py _) >>= _) = _
  unfold splitLoop
  dsimp only
  rw [Nat.zero_mul, List.drop_zero, hf]
  rfl

/-- **C67 is violated** for the Hofstra and MixHofstraShepard modes: with a CDD map that has one value per target cell,
two or more splits always fail (and without splits the map is accepted). -/
theorem splits_cdd_fail {S W : Type} (F : CddFuns S) (finish : S → OptVal → List (List (ℚ × ℚ)) → Py (ScipyLib.Part W))
    (mode : String) (hmode : mode = "Hofstra" ∨ mode = "MixHofstraShepard") (cdd : List (List ℚ)) (st : List (ℚ × ℚ))
    (grid : List (List (ℚ × ℚ))) (nnear k width : Nat) (hw : 0 < width) (hg : ∀ r ∈ grid, r.length = width)
    (hlen : cdd.flatten.length = grid.flatten.length) (hk : 2 ≤ k) (hn : k ≤ grid.length) :
    interpolate nnear (some k) (cddPart F finish mode none cdd st) grid = .error .valueError ∧
    ∃ s m, interpolate nnear none (cddPart F finish mode none cdd st) grid = finish s m grid := by
  obtain ⟨h0, h1⟩ := splits_size_lt grid.length k hk hn
  have hfl : ∀ g : List (List (ℚ × ℚ)), (∀ r ∈ g, r.length = width) → g.flatten.length = g.length * width := by
    intro g hg
    induction g with
    | nil => simp
    | cons r g ih =>
      rw [List.flatten_cons, List.length_append, ih fun r hr => hg r (List.mem_cons_of_mem _ hr),
        hg r List.mem_cons_self, List.length_cons]
      ring
  have hmap : ∀ g : List (List (ℚ × ℚ)), (g.map (·.map (·.1))).flatten.length = g.flatten.length := by
    intro g
    rw [← List.map_flatten, List.length_map]
  constructor
  · refine interpolate_first_fails nnear k _ grid (by omega) hn _ ?_
    have hne : ¬ cdd.flatten.length = (grid.take (grid.length / k)).flatten.length := by
      rw [hlen, hfl _ hg, hfl _ fun r hr => hg r (List.mem_of_mem_take hr), List.length_take, min_eq_left h1.le]
      intro h
      have := Nat.eq_of_mul_eq_mul_right hw h
      omega
    unfold cddPart cddS
    dsimp only
    rw [hmap]
    rcases hmode with rfl | rfl
    · rw [if_pos rfl, if_neg hne]; rfl
    · rw [if_neg (by decide), if_pos rfl]
      dsimp only [cddOptions, bind, Except.bind]
      rw [if_neg hne]
  · unfold interpolate cddPart cddS
    dsimp only
    rw [hmap]
    rcases hmode with rfl | rfl
    · rw [if_pos rfl, if_pos hlen]; exact ⟨_, _, rfl⟩
    · rw [if_neg (by decide), if_pos rfl]
      dsimp only [cddOptions, bind, Except.bind]
      rw [if_pos hlen]; exact ⟨_, _, rfl⟩

/-- **C67 is violated** for the NewEtAl mode: as many splits as rows always fail. -/
theorem splits_new_rows_fail {S W : Type} (F : CddFuns S) (finish : S → OptVal → List (List (ℚ × ℚ)) → Py (ScipyLib.Part W))
    (opts : Option (List (String × OptVal))) (cdd : List (List ℚ)) (st : List (ℚ × ℚ)) (grid : List (List (ℚ × ℚ)))
    (nnear : Nat) (hn : grid ≠ []) :
    interpolate nnear (some grid.length) (cddPart F finish "NewEtAl" opts cdd st) grid = .error .indexError := by
  have hpos := List.length_pos_of_ne_nil hn
  refine interpolate_first_fails nnear _ _ grid hpos le_rfl _ ?_
  rw [Nat.div_self hpos]
  obtain ⟨r, g, rfl⟩ : ∃ r g, grid = r :: g := by
    cases grid with
    | nil => exact absurd rfl hn
    | cons r g => exact ⟨r, g, rfl⟩
  have ho : cddOrigins (((r :: g).take 1).map (·.map (·.1))) (((r :: g).take 1).map (·.map (·.2))) =
      .error .indexError := by
    rw [List.take_succ_cons, List.take_zero]
    unfold cddOrigins
    split
    · rename_i h
      exact absurd (congrArg List.length h) (by simp)
    · rfl
  unfold cddPart cddS
  dsimp only
  rw [if_neg (by decide), if_neg (by decide), if_pos rfl]
  unfold newLookup
  rw [ho]
  rfl

/-! ## C89: options by name -/

namespace Spec

/-- The options taken by their names. -/
def byName (d : List (String × OptVal)) : Option CddOptions := do
  let a ← Dict.get? d "m_const"
  let b ← Dict.get? d "min_num_of_station"
  let c ← Dict.get? d "radius_ratio"
  let e ← Dict.get? d "weights_mode"
  return ⟨a, b, c, e⟩

end Spec

/-- **C89 (part)**: options given in the documented order are taken by name. -/
theorem cdd_options_partial (a b c e : OptVal) :
    ∃ d : List (String × OptVal), d = [("m_const", a), ("min_num_of_station", b), ("radius_ratio", c), ("weights_mode", e)] ∧
      (cddOptions (some d)).toOption = Spec.byName d ∧ Spec.byName d = some ⟨a, b, c, e⟩ := by
  exact ⟨_, rfl, rfl, rfl⟩

/-- **C89 (part)**: without options those of the manual apply (`m_const` 4, `min_num_of_station` 4, `radius_ratio` 1/3,
`weights_mode` All). -/
theorem cdd_options_default :
    (cddOptions none).toOption = Spec.byName [("m_const", .num 4), ("min_num_of_station", .num 4),
      ("radius_ratio", .num (1 / 3)), ("weights_mode", .str "All")] := rfl

/-- **C89 is violated**: in any other order of the keys the values are assigned to other options, whatever names they
were given. -/
theorem cdd_options_by_position (ks ks' : List String) (vs : List OptVal) (h : ks.length = vs.length)
    (h' : ks'.length = vs.length) : cddOptions (some (ks.zip vs)) = cddOptions (some (ks'.zip vs)) := by
  unfold cddOptions
  dsimp only
  have e : ∀ ks : List String, ks.length = vs.length → (ks.zip vs).map (·.2) = vs := fun ks hk =>
    List.map_snd_zip (by omega)
  rw [e ks h, e ks' h']

example : ∃ d : List (String × OptVal), d = [("weights_mode", .str "All"), ("m_const", .num 4),
    ("min_num_of_station", .num 4), ("radius_ratio", .num (1 / 3))] ∧
    cddOptions (some d) = .ok ⟨.str "All", .num 4, .num 4, .num (1 / 3)⟩ ∧
    Spec.byName d = some ⟨.num 4, .num 4, .num (1 / 3), .str "All"⟩ := ⟨_, rfl, rfl, rfl⟩

/-- **C89 is violated**: leaving an option out (or adding one) fails. -/
theorem cdd_options_count (d : List (String × OptVal)) (h : d.length ≠ 4) : cddOptions (some d) = .error .valueError := by
  unfold cddOptions
  dsimp only
  split
  · rename_i hd
    have := congrArg List.length hd
    rw [List.length_map] at this
    exact absurd this h
  · rfl

/-- **C89 is violated**: an unknown CDD mode is not reported with an application error. -/
theorem cdd_mode_unknown {S : Type} (F : CddFuns S) (mode : String) (opts : Option (List (String × OptVal)))
    (cdd lats lons : List (List ℚ)) (st : List (ℚ × ℚ)) (h1 : mode ≠ "Hofstra") (h2 : mode ≠ "MixHofstraShepard")
    (h3 : mode ≠ "NewEtAl") : cddS F mode opts cdd lats lons st = .error .unboundLocal := by
  unfold cddS
  dsimp only
  rw [if_neg h1, if_neg h2, if_neg h3]

/-! ## C90: the ten largest weights -/

namespace Spec

/-- `t` is `s` with one smallest entry set to zero. -/
def KeepsLargest (s t : List ℚ) : Prop :=
  ∃ (i : Nat) (m : ℚ), s[i]? = some m ∧ (∀ x ∈ s, m ≤ x) ∧ t = s.set i 0

end Spec

theorem onlyTop10_eq (s : List ℚ) (p : Nat) (rest : List Nat) (hr : rest.length = 10) :
    onlyTop10 s (p :: rest) = s.set p 0 := by
  unfold onlyTop10
  rw [List.length_cons, hr]
  apply List.ext_getElem?
  intro i
  rw [List.getElem?_mapIdx, List.getElem?_set]
  change Option.map (fun x => if i ∈ [p] then (0 : ℚ) else x) s[i]? = _
  by_cases h : p = i
  · subst h
    rw [if_pos rfl]
    by_cases hl : p < s.length
    · rw [if_pos hl, List.getElem?_eq_getElem hl]
      simp
    · rw [if_neg hl, List.getElem?_eq_none (by omega)]
      rfl
  · rw [if_neg h]
    have : i ∉ [p] := by simpa using fun hh => h hh.symm
    cases s[i]? with
    | none => rfl
    | some x => exact congrArg some (if_neg this)

/-- **C90 (part)**: with the contract of `np.argpartition` the largest weight is kept (or one equal to it remains), and
exactly one of the eleven weights is set to zero. -/
theorem top10_partial (s : List ℚ) (perm : List Nat) (hs : s.length = 11) (hp : IsArgPartition s 10 perm) :
    ∃ (i j : Nat) (x y : ℚ), i ≠ j ∧ s[i]? = some x ∧ s[j]? = some y ∧ (∀ z ∈ s, z ≤ y) ∧ onlyTop10 s perm = s.set i 0 := by
  obtain ⟨hperm, hle⟩ := hp
  have hlen : perm.length = 11 := by rw [hperm.length_eq, List.length_range, hs]
  obtain ⟨p, rest, rfl⟩ : ∃ p rest, perm = p :: rest := by
    cases perm with
    | nil => cases hlen
    | cons p rest => exact ⟨p, rest, rfl⟩
  have hr : rest.length = 10 := by simpa using hlen
  have hmem : ∀ x ∈ p :: rest, x < 11 := fun x hx => by
    have := hperm.mem_iff.1 hx
    rw [List.mem_range, hs] at this
    exact this
  have hnd : (p :: rest).Nodup := hperm.nodup_iff.2 List.nodup_range
  have h10 : (p :: rest)[10]? = some (rest[9]'(by omega)) := by
    rw [show (10 : Nat) = 9 + 1 from rfl, List.getElem?_cons_succ, List.getElem?_eq_getElem]
  have hq : rest[9]'(by omega) ∈ rest := List.getElem_mem _
  have hpl : p < s.length := by rw [hs]; exact hmem _ List.mem_cons_self
  have hql : rest[9]'(by omega) < s.length := by rw [hs]; exact hmem _ (List.mem_cons_of_mem _ hq)
  refine ⟨p, rest[9]'(by omega), s[p], s[rest[9]'(by omega)], ?_, List.getElem?_eq_getElem hpl,
    List.getElem?_eq_getElem hql, ?_, onlyTop10_eq s p rest hr⟩
  · intro h
    rw [List.nodup_cons] at hnd
    exact hnd.1 (h ▸ hq)
  · intro z hz
    obtain ⟨a, ha, rfl⟩ := List.getElem_of_mem hz
    have hin : a ∈ p :: rest := hperm.mem_iff.2 (by rw [List.mem_range]; exact ha)
    obtain ⟨i, hi, hia⟩ := List.getElem_of_mem hin
    have := hle i 10 a _ (by rw [List.getElem?_eq_getElem hi, hia]) h10 ⟨by rw [hlen] at hi; omega, le_rfl⟩
    rw [List.getD_eq_getElem?_getD, List.getD_eq_getElem?_getD, List.getElem?_eq_getElem ha,
      List.getElem?_eq_getElem hql] at this
    exact this

/-- **C90 is violated**: the contract of `np.argpartition(s, 10)` lets the second largest weight be dropped. (It would
have to be called with `s.shape[1] - 10`.) -/
theorem top10_may_drop_large :
    ∃ (s : List ℚ) (perm : List Nat), s = [11, 10, 9, 8, 7, 6, 5, 4, 3, 2, 1] ∧ IsArgPartition s 10 perm ∧
      onlyTop10 s perm = [11, 0, 9, 8, 7, 6, 5, 4, 3, 2, 1] ∧ ¬ Spec.KeepsLargest s (onlyTop10 s perm) := by
  have e : onlyTop10 [11, 10, 9, 8, 7, 6, 5, 4, 3, 2, 1] [1, 2, 3, 4, 5, 6, 7, 8, 9, 10, 0] =
      [11, 0, 9, 8, 7, 6, 5, 4, 3, 2, 1] := by decide +kernel
  refine ⟨_, [1, 2, 3, 4, 5, 6, 7, 8, 9, 10, 0], rfl, ⟨by decide, ?_⟩, e, ?_⟩
  · intro i j a b ha hb hij
    have hj : j < 11 := (List.getElem?_eq_some_iff.1 hb).1
    obtain rfl : j = 10 := by omega
    cases hb
    have : ∀ a ∈ [1, 2, 3, 4, 5, 6, 7, 8, 9, 10, 0],
        ([11, 10, 9, 8, 7, 6, 5, 4, 3, 2, 1] : List ℚ).getD a 0 ≤ ([11, 10, 9, 8, 7, 6, 5, 4, 3, 2, 1] : List ℚ).getD 0 0 := by
      decide +kernel
    exact this a (List.mem_of_getElem? ha)
  · rw [e]
    rintro ⟨i, m, hi, hmin, ht⟩
    have hm : m ≤ 1 := hmin 1 (by decide +kernel)
    have h0 := congrArg (fun l : List ℚ => l[1]?) ht
    rw [List.getElem?_set] at h0
    by_cases h : i = 1
    · subst h
      cases hi
      exact absurd hm (by decide +kernel)
    · rw [if_neg h] at h0
      exact absurd h0 (by decide +kernel)

/-! ## C91: settings and tables -/

/-- Two sets of settings that differ at most in the CDD map, mode and options and in `rotated_target`. -/
def SameButCdd (a b : Settings) : Prop :=
  a = { b with cddMap := a.cddMap, cddMode := a.cddMode, cddOptions := a.cddOptions, rotatedTarget := a.rotatedTarget }

/-- **C91 is violated**: once a run has created a table, every later run with other CDD settings or another
`rotated_target` (and the rest unchanged) uses that table; what its own settings would build is not looked at. -/
theorem table_ignores_settings {τ : Type} [DecidableEq τ] (le : Str → Str → Bool) (global template : Dict Str TblEntry)
    (hg : NpyNames global) (ht : NpyNames template) (w0 : Store τ) (h0 : w0.cache = []) (hn0 : NamesOK w0)
    (hu0 : (Dict.keys w0.conf.user).Nodup) (hu1 : ∀ u, w0.conf.disk = some (.obj u) → (Dict.keys u).Nodup)
    (hu2 : (Dict.keys template).Nodup) (h1 h2 : List (Act τ)) (a b : Settings) (hab : SameButCdd a b) (d : Str)
    (hd : a.userDir = some d) (hne : d ≠ []) (build : Settings → Py τ) (w : Store τ)
    (hw : w = after le global template w0 h1) (t : τ) (hout : (w.scipy le a.run (build a)).1 = .ok t)
    (hcreate : ∀ p, w.tablePath a.run = .ok p → w.exAny p = false) :
    ((after le global template (w.scipy le a.run (build a)).2 h2).scipy le b.run (build b)).1 = .ok t := by
  have hrun : b.run = a.run := by
    unfold SameButCdd at hab
    rw [hab]
    rfl
  rw [hrun]
  exact (created_table_reused le global template hg ht w0 h0 hn0 hu0 hu1 hu2 h1 h2 a.run d hd hne (build a) (build b) w hw
    _ (.inl rfl) t hout hcreate _ _ rfl (.inl rfl)).1

/-- Non-vacuity: on an empty store, the run with mode Hofstra creates table 5, and the run with mode NewEtAl, which would
build table 6, uses it. -/
example (le : Str → Str → Bool) : ∃ a b : Settings, a.cddMode = "Hofstra" ∧ b.cddMode = "NewEtAl" ∧ SameButCdd a b ∧
    ∀ build : Settings → Py Nat, build a = .ok 5 → build b = .ok 6 →
      ((Demo.emptyStore.scipy le a.run (build a)).2.scipy le b.run (build b)).1 = .ok 5 := by
  let a : Settings := { mode := "cdd".toList, cddMap := [], cddMode := "Hofstra", cddOptions := none, rotatedTarget := false, splits := none, gridId := ['g'], target := ['t'], targetSize := 4, source := ['s'], create := true, write := .ok (), userDir := some ['u'], globalDir := none }
  refine ⟨a, { a with cddMode := "NewEtAl" }, rfl, rfl, rfl, ?_⟩
  intro build h5 h6
  have hid : a.run.id ∉ Dict.keys Demo.emptyStore.conf.vars := by intro h; cases h
  obtain ⟨k, hp, hx, hs⟩ := scipy_new le Demo.emptyStore a.run ['u'] 5 hid rfl rfl rfl (by intro q hq; cases hq)
  have hn : NpyNames ([] : Dict Str TblEntry) := by intro q hq; cases hq
  exact table_ignores_settings le [] [] hn hn Demo.emptyStore rfl ⟨hn, hn, (by intro u hu; cases hu)⟩ List.nodup_nil
    (by intro u hu; cases hu) List.nodup_nil [] [] a { a with cddMode := "NewEtAl" } rfl ['u'] rfl (by decide) build
    Demo.emptyStore rfl 5 (by rw [h5, hs]) (by intro p hp'; rw [hp] at hp'; rw [← Except.ok.inj hp']; exact hx)

/-- Non-vacuity of `splits_cdd_fail`: a target of 2 rows and 2 columns. -/
example (F : CddFuns Unit) (finish : Unit → OptVal → List (List (ℚ × ℚ)) → Py (Part Num)) :
    interpolate 11 (some 2) (cddPart F finish "Hofstra" none [[1, 2], [3, 4]] []) [[(1, 1), (1, 2)], [(0, 1), (0, 2)]] =
      .error .valueError :=
  (splits_cdd_fail F finish "Hofstra" (.inl rfl) _ [] _ 11 2 2 (by decide) (by decide) rfl (by decide) (by decide)).1

/-- **C91 (part)**: two settings whose runs use the same table identifier have the same mode, the same source grid
identifier, and target maps that agree as far as C58 says. -/
theorem settings_id_partial (a b : Settings) (g g' : GeoKeys) (hg : '$' ∉ g.gridType) (hg' : '$' ∉ g'.gridType)
    (lat lon lat' lon' : MapGeo) (ha : a.gridId = g.buildId) (hb : b.gridId = g'.buildId)
    (ta : a.target = targetId lat lon) (tb : b.target = targetId lat' lon') (ma : (tableSuffix a.mode).isSome)
    (mb : (tableSuffix b.mode).isSome) (h : a.run.id = b.run.id) :
    a.mode = b.mode ∧ a.gridId = b.gridId ∧ Spec.MapsAgree lat lat' ∧ Spec.MapsAgree lon lon' := by
  obtain ⟨s, hs⟩ := Option.isSome_iff_exists.1 ma
  obtain ⟨s', hs'⟩ := Option.isSome_iff_exists.1 mb
  have e : tableId g.buildId (targetId lat lon) s = tableId g'.buildId (targetId lat' lon') s' := by
    have : tableId a.gridId a.target ((tableSuffix a.mode).getD []) = tableId b.gridId b.target ((tableSuffix b.mode).getD []) := h
    rw [hs, hs', ha, hb, ta, tb] at this
    exact this
  rw [ha, hb]
  exact table_id_partial g g' hg hg' lat lon lat' lon' a.mode b.mode s s' hs hs' e

end PyG2P
