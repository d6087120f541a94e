import Verif.Model.Pipeline
import Verif.Props.TableApply
import Verif.Props.Controller
import Verif.Props.Conversion
import Verif.Props.Messages
import Verif.Props.Correction

/-! # C117–C123 — from the messages to the maps written -/

namespace PyG2P
open Spec TableApply Converter
variable {n m k : Nat}

namespace Spec

/-- The value of a source point that a cell of the target takes: the missing value where it is masked. -/
def sample (v : Arr n) (mv : Num) (j : Nat) : Num :=
  if h : j < n then (if v.masked ⟨j, h⟩ then mv else v.data ⟨j, h⟩) else mv

/-- Is source point `j` masked? -/
def maskedAt (v : Arr n) (j : Nat) : Bool := if h : j < n then v.masked ⟨j, h⟩ else false

/-- What a table makes of field `v` in target cell `c`. -/
def cellOf (t : Table k) (mv : Num) (v : Arr n) (c : Fin k) : Num :=
  match t with
  | .gribNearest tbl =>
    match rowFor (·.1) tbl c with
    | none => mv
    | some e => sample v mv e.2
  | .gribInvdist tbl =>
    match rowFor Row.cell tbl c with
    | none => mv
    | some e =>
      if maskedAt v e.p1.1 || maskedAt v e.p2.1 || maskedAt v e.p3.1 || maskedAt v e.p4.1 then mv
      else valueAt v mv e.p1.1 * e.p1.2 + valueAt v mv e.p2.1 * e.p2.2 + valueAt v mv e.p3.1 * e.p3.2
        + valueAt v mv e.p4.1 * e.p4.2
  | .nearest idx => valueAt v mv (idx c)
  | .weighted rows => ((rows c).map fun p => p.2 * valueAt v mv p.1).sum

/-- The table belongs to a grid of `n` points: its indexes are points of the grid (in tables made with a search tree
also `n`, "no point in reach"). -/
def Fits (t : Table k) (n : Nat) : Prop :=
  match t with
  | .gribNearest tbl => ∀ e ∈ tbl, e.2 < n
  | .gribInvdist tbl => ∀ e ∈ tbl, e.p1.1 < n ∧ e.p2.1 < n ∧ e.p3.1 < n ∧ e.p4.1 < n
  | .nearest idx => ∀ c, idx c ≤ n
  | .weighted rows => ∀ c, ∀ p ∈ rows c, p.1 ≤ n

/-- What is written in a cell: the clone's missing value outside the clone and for NaN. -/
def shown (mask : Option (Fin k → Bool)) (mvClone : Num) (x : Num) (c : Fin k) : Num :=
  if outside mask c = true ∨ x = .nan then mvClone else x

/-- The conversion option `x=t` where `t` means `f`; without conversion, or with `x=x`, `f` is the identity. -/
def Means (ne : NumExpr) (conv : Option (Option Str)) (f : Num → Num) : Prop :=
  ((conv = none ∨ conv = some (some "x=x".toList)) ∧ f = id) ∨
  ∃ t, OnlyLeading t ∧ t ≠ "x".toList ∧ ne t = some f ∧ conv = some (some ("x=".toList ++ t))

/-- A converted field: missing cells (`mv`) stay. -/
def convertedField (mv : ℚ) (f : Num → Num) (v : Arr n) : Arr n :=
  ⟨fun i => if v.data i = .fin mv then .fin mv else f (v.data i), v.mask⟩

/-- A field after cutting off negative values, if they are (the bitmap is lost then). -/
def cutField (cut : Bool) (v : Arr n) : Arr n :=
  if cut then ⟨fun i => if (v.data i).ltb 0 then 0 else v.data i, none⟩ else v

end Spec

/-! ## interpolation -/

theorem srcAt_eq (v : Arr n) (j : Nat) (h : j < n) : srcAt v j = .ok (v.data ⟨j, h⟩, v.masked ⟨j, h⟩) := by
  unfold srcAt; rw [dif_pos h]

theorem srcMv_eq (v : Arr n) (mv : Num) (j : Nat) (h : j ≤ n) : srcMv v mv j = .ok (valueAt v mv j) := by
  unfold srcMv valueAt
  by_cases h' : j < n
  · rw [dif_pos h', dif_pos h']
  · rw [dif_neg h', dif_neg h', if_pos (by omega)]

theorem foldlM_all_ok {ρ β : Type} (g : β → ρ → Py β) (l : List ρ) (r0 : β) (h : ∀ r, ∀ e ∈ l, ∃ r', g r e = .ok r') :
    ∃ r, l.foldlM g r0 = .ok r := by
  induction l generalizing r0 with
  | nil => exact ⟨r0, rfl⟩
  | cons e l ih =>
    obtain ⟨r', h'⟩ := h r0 e (by simp)
    obtain ⟨r, hr⟩ := ih r' (fun r e he => h r e (by simp [he]))
    exact ⟨r, by rw [List.foldlM_cons, h']; exact hr⟩

theorem mapM_all_ok {α β : Type} (f : α → Py β) (g : α → β) (l : List α) (h : ∀ a ∈ l, f a = .ok (g a)) :
    l.mapM f = .ok (l.map g) := by
  induction l with
  | nil => rfl
  | cons a l ih =>
    rw [List.mapM_cons, h a (by simp), ih (fun b hb => h b (by simp [hb]))]
    rfl

theorem cellsOf_ofFn (f : Fin k → Num) : cellsOf (List.ofFn f) = f := by
  funext c
  unfold cellsOf
  rw [List.getD_eq_getElem?_getD, List.getElem?_ofFn, dif_pos c.2]
  rfl

theorem rowFor_mem {ρ : Type} {cell : ρ → Fin k} {tbl : List ρ} {c : Fin k} {e : ρ}
    (h : rowFor cell tbl c = some e) : e ∈ tbl ∧ cell e = c := by
  have := List.mem_of_getLast? h
  rw [List.mem_filter] at this
  exact ⟨this.1, by simpa using this.2⟩

theorem rowFor_none {ρ : Type} {cell : ρ → Fin k} {tbl : List ρ} {c : Fin k} (h : rowFor cell tbl c = none) :
    ∀ e ∈ tbl, cell e ≠ c := by
  unfold rowFor at h
  rw [List.getLast?_eq_none_iff, List.filter_eq_nil_iff] at h
  intro e he
  simpa using h e he

/-- Interpolation of any field with a table of its grid succeeds; the result has no mask and each cell is what the
table says. -/
theorem interpolate_eq (t : Table k) (mv : Num) (v : Arr n) (h : Fits t n) :
    t.interpolate mv v = .ok (Arr.plain (cellOf t mv v)) := by
  cases t with
  | gribNearest tbl =>
    obtain ⟨r, hr⟩ : ∃ r, gribNearest v mv tbl = .ok r := by
      refine foldlM_all_ok _ _ _ fun r e he => ?_
      rw [srcAt_eq v _ (h e he)]
      exact ⟨_, rfl⟩
    unfold Table.interpolate
    dsimp only
    rw [hr]
    change Except.ok _ = _
    congr 2
    funext c
    obtain ⟨h1, h2⟩ := C60_grib_nearest v mv tbl r hr c
    unfold cellOf
    dsimp only
    cases hrow : rowFor (·.1) tbl c with
    | none => exact h1 (rowFor_none hrow)
    | some e =>
      obtain ⟨he, hc⟩ := rowFor_mem hrow
      obtain ⟨hk, hd⟩ := h2 e.2 (by rw [hrow, ← hc])
      rw [hd]
      unfold sample
      dsimp only
      rw [dif_pos hk]
  | gribInvdist tbl =>
    obtain ⟨r, hr⟩ : ∃ r, gribInvdist v mv tbl = .ok r := by
      refine foldlM_all_ok _ _ _ fun r e he => ?_
      obtain ⟨a1, a2, a3, a4⟩ := h e he
      rw [srcAt_eq v _ a1, srcAt_eq v _ a2, srcAt_eq v _ a3, srcAt_eq v _ a4]
      exact ⟨_, rfl⟩
    unfold Table.interpolate
    dsimp only
    rw [hr]
    change Except.ok _ = _
    congr 2
    funext c
    obtain ⟨h1, h2⟩ := C60_grib_invdist v mv tbl r hr c
    unfold cellOf
    dsimp only
    cases hrow : rowFor Row.cell tbl c with
    | none => exact h1 (rowFor_none hrow)
    | some e =>
      obtain ⟨a1, a2, a3, a4, hd⟩ := h2 e hrow
      rw [hd]
      unfold maskedAt valueAt
      simp only [dif_pos a1, dif_pos a2, dif_pos a3, dif_pos a4, Bool.or_eq_true, or_assoc]
  | nearest idx =>
    unfold Table.interpolate scipyNearest
    dsimp only
    rw [mapM_all_ok _ (valueAt v mv) _ (by
      intro j hj
      obtain ⟨c, rfl⟩ := List.mem_ofFn.1 hj
      exact srcMv_eq v mv _ (h c)), List.map_ofFn]
    change Except.ok (Arr.plain (cellsOf _)) = _
    rw [cellsOf_ofFn]
    rfl
  | weighted rows =>
    unfold Table.interpolate scipyWeighted
    dsimp only
    rw [mapM_all_ok _ (fun row => (row.map fun p : Nat × Num => p.2 * valueAt v mv p.1).sum) _ (by
      intro row hrow
      obtain ⟨c, rfl⟩ := List.mem_ofFn.1 hrow
      rw [mapM_all_ok _ (fun p : Nat × Num => p.2 * valueAt v mv p.1) _ (by
        intro p hp
        rw [srcMv_eq v mv _ (h c p hp)]
        rfl)]
      change Except.ok _ = _
      rw [foldl_add_sum, Num.zero_add']), List.map_ofFn]
    change Except.ok (Arr.plain (cellsOf _)) = _
    rw [cellsOf_ofFn]
    rfl

/-- Interpolation with a table of another grid fails instead of giving wrong maps, or the extra points are not
reached: a successful interpolation has all its indexes in the field. -/
theorem interpolate_fits (t : Table k) (mv : Num) (v : Arr n) (a : Arr k) (h : t.interpolate mv v = .ok a) :
    Fits t n := by
  have fold : ∀ {ρ β : Type} (g : β → ρ → Py β) (P : ρ → Prop), (∀ r e r', g r e = .ok r' → P e) →
      ∀ (l : List ρ) r0 r, l.foldlM g r0 = .ok r → ∀ e ∈ l, P e := by
    intro ρ β g P hg l
    induction l with
    | nil => intro _ _ _ e he; cases he
    | cons x l ih =>
      intro r0 r hr e he
      rw [List.foldlM_cons] at hr
      obtain ⟨r1, h1, h2⟩ := bind_ok_iff.1 hr
      rcases List.mem_cons.1 he with rfl | he
      · exact hg _ _ _ h1
      · exact ih _ _ h2 e he
  have hs : ∀ j x, srcAt v j = .ok x → j < n := by
    intro j x hx
    unfold srcAt at hx
    split at hx
    · assumption
    · cases hx
  have inner : ∀ {α β : Type} {e : Py α} {f : α → β} {b : β}, e.map f = .ok b → ∃ x, e = .ok x := by
    intro α β e f b he
    cases e with
    | error _ => cases he
    | ok x => exact ⟨x, rfl⟩
  cases t with
  | gribNearest tbl =>
    obtain ⟨r, hr⟩ := inner h
    refine fold _ (fun e => e.2 < n) ?_ tbl _ _ hr
    intro r e r' he
    obtain ⟨p, hp, -⟩ := bind_ok_iff.1 he
    exact hs _ _ hp
  | gribInvdist tbl =>
    obtain ⟨r, hr⟩ := inner h
    refine fold _ (fun e : Row k => e.p1.1 < n ∧ e.p2.1 < n ∧ e.p3.1 < n ∧ e.p4.1 < n) ?_ tbl _ _ hr
    intro r e r' he
    obtain ⟨p1, h1, he⟩ := bind_ok_iff.1 he
    obtain ⟨p2, h2, he⟩ := bind_ok_iff.1 he
    obtain ⟨p3, h3, he⟩ := bind_ok_iff.1 he
    obtain ⟨p4, h4, -⟩ := bind_ok_iff.1 he
    exact ⟨hs _ _ h1, hs _ _ h2, hs _ _ h3, hs _ _ h4⟩
  | nearest idx =>
    obtain ⟨r, hr⟩ := inner h
    obtain ⟨hl, hx⟩ := C60_scipy_nearest v mv _ r hr
    intro c
    have hc : (List.ofFn idx)[(c : Nat)]? = some (idx c) := by rw [List.getElem?_ofFn, dif_pos c.2]
    have hr' : ∃ x, r[(c : Nat)]? = some x := by
      rw [← Option.isSome_iff_exists, isSome_getElem?]
      rw [hl, List.length_ofFn]
      exact c.2
    obtain ⟨x, hx'⟩ := hr'
    exact (hx _ _ _ hc hx').2.2
  | weighted rows =>
    obtain ⟨r, hr⟩ := inner h
    obtain ⟨hl, hx⟩ := C60_scipy_weighted v mv _ r hr
    intro c
    have hc : (List.ofFn rows)[(c : Nat)]? = some (rows c) := by rw [List.getElem?_ofFn, dif_pos c.2]
    have hr' : ∃ x, r[(c : Nat)]? = some x := by
      rw [← Option.isSome_iff_exists, isSome_getElem?]
      rw [hl, List.length_ofFn]
      exact c.2
    obtain ⟨x, hx'⟩ := hr'
    exact (hx _ _ _ hc hx').2.1

end PyG2P
