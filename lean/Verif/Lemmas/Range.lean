import Verif.Lemmas.Py
import Mathlib.Tactic.Ring
import Mathlib.Algebra.BigOperators.Group.List.Basic
import Mathlib.Data.Rat.Cast.Defs

/-! # `range` as a recursion; telescoping sums -/

namespace PyG2P

theorem rangeList_eq_nil_of_lt {a b s : Int} (hs : 0 < s) (h : b ≤ a) : rangeList a b s = [] := by
  apply List.eq_nil_of_length_eq_zero
  unfold rangeList
  rw [List.length_map, List.length_range]
  have : (b - a + s - 1) / s ≤ 0 := by
    have : (b - a + s - 1) / s < 1 := Int.ediv_lt_of_lt_mul hs (by omega)
    omega
  omega

theorem rangeList_cons {a b s : Int} (hs : 0 < s) (h : a < b) :
    rangeList a b s = a :: rangeList (a + s) b s := by
  unfold rangeList
  have h1 : (b - a + s - 1) / s = (b - (a + s) + s - 1) / s + 1 := by
    rw [show b - a + s - 1 = (b - (a + s) + s - 1) + 1 * s by ring, Int.add_mul_ediv_right _ _ hs.ne']
  have h2 : 0 ≤ (b - (a + s) + s - 1) / s := Int.ediv_nonneg (by omega) (le_of_lt hs)
  rw [h1, show ((b - (a + s) + s - 1) / s + 1).toNat = ((b - (a + s) + s - 1) / s).toNat + 1 by omega,
    List.range_succ_eq_map, List.map_cons, List.map_map]
  simp only [Nat.cast_zero, zero_mul, add_zero]
  congr 1
  apply List.map_congr_left
  intro k _
  simp only [Function.comp]
  push_cast
  ring

/-- Telescoping along a range. -/
theorem telescope (q : Int → ℚ) (step : Int) (hs : 0 < step) (N : Nat) :
    ∀ (first end_ : Int), first ≤ end_ → (end_ - first) / step = N →
    ((rangeList first (end_ + 1) step).map fun t => q t - q (t - step)).sum
      = q (first + N * step) - q (first - step) := by
  induction N with
  | zero =>
    intro first end_ hle hN
    rw [rangeList_cons hs (by omega), rangeList_eq_nil_of_lt hs]
    · simp
    · have := Int.lt_ediv_add_one_mul_self (end_ - first) hs
      rw [hN] at this; push_cast at this; linarith
  | succ N ih =>
    intro first end_ hle hN
    rw [rangeList_cons hs (by omega), List.map_cons, List.sum_cons]
    have h1 : (end_ - (first + step)) / step = N := by
      rw [show end_ - (first + step) = (end_ - first) + (-1) * step by ring,
        Int.add_mul_ediv_right _ _ hs.ne', hN]; push_cast; ring
    have hle' : first + step ≤ end_ := by
      have := Int.ediv_mul_le (end_ - first) hs.ne'
      rw [hN] at this; push_cast at this; nlinarith
    rw [ih (first + step) end_ hle' h1, show first + step - step = first by ring,
      show first + step + (N : Int) * step = first + ((N + 1 : Nat) : Int) * step by push_cast; ring]
    ring


end PyG2P
