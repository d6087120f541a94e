import Verif.Props.Average

/-! # C11: half-weight averages -/

namespace PyG2P
open Spec Aggregator
variable {n : Nat}

namespace Spec

/-- The available steps in `[s, s+step]`, in time order. -/
def availIn (ms : Messages n) (s step : Int) : List Int :=
  (rangeList s (s + step + 1) 1).filter fun h => decide (Avail ms h)

/-- Weight of step `h` in `[s, s+step]` when `cnt + 1` steps are available: `dt = step/cnt`,
halved at the two ends. -/
def halfWeight (s step : Int) (cnt : ℚ) (h : Int) : ℚ :=
  if h = s ∨ h = s + step then step / cnt / 2 else step / cnt

end Spec

theorem halfFold_ok (ms : Messages n) (a b : Int) (dt1 dt2 : ℚ) (i : Fin n)
    (hmask : ∀ p ∈ ms, p.2.masked i = false) (l : List Int) :
    ∀ (acc : (Fin n → Num) × Num), ∃ r, l.foldlM (halfHour (vOrd ms) a b (.fin dt1) (.fin dt2)) acc = .ok r ∧
      r.1 i = acc.1 i + ((l.filter fun h => decide (Avail ms h)).map fun h =>
        ((fieldAt ms h).getD Arr.zeros).data i * .fin (if h = a ∨ h = b - 1 then dt2 else dt1)).sum ∧
      r.2 = acc.2 + .fin (((l.filter fun h => decide (Avail ms h)).map fun h =>
        (if h = a ∨ h = b - 1 then dt2 else dt1)).sum) := by
  induction l with
  | nil =>
    intro acc
    refine ⟨acc, rfl, ?_, ?_⟩
    · simp
    · simp only [List.filter_nil, List.map_nil, List.sum_nil]
      exact (add_zero acc.2).symm
  | cons h l ih =>
    intro acc
    rw [List.foldlM_cons]
    unfold halfHour
    by_cases hin : h ∈ Dict.keys (vOrd ms)
    · have ha := (mem_keys_vOrd ms h).1 hin
      obtain ⟨v, hv⟩ := Option.isSome_iff_exists.1 ((avail_iff _ _).1 ha)
      rw [if_pos hin, Dict.getE_of_get? (by rw [get?_vOrd]; exact hv)]
      simp only [ok_bind]
      have hw : (if h = a ∨ h = b - 1 then Num.fin dt2 else Num.fin dt1)
          = Num.fin (if h = a ∨ h = b - 1 then dt2 else dt1) := by split <;> rfl
      rw [hw]
      obtain ⟨r, h1, h2, h3⟩ := ih (fun j => acc.1 j + (v.scale (.fin (if h = a ∨ h = b - 1 then dt2 else dt1))).data j,
        acc.2 + .fin (if h = a ∨ h = b - 1 then dt2 else dt1))
      refine ⟨r, h1, ?_, ?_⟩
      · rw [h2, List.filter_cons_of_pos (by simpa using ha), List.map_cons, List.sum_cons]
        dsimp only
        rw [add_assoc]
        congr 2
        rw [hv]
        obtain ⟨p, hp, hpe, -⟩ := fieldAt_mem hv
        have hm := hmask p hp
        rw [hpe] at hm
        unfold Arr.scale
        simp [hm]
      · rw [h3, List.filter_cons_of_pos (by simpa using ha), List.map_cons, List.sum_cons]
        dsimp only
        rw [add_assoc, Num.fin_add]
    · have ha : ¬ Avail ms h := fun hc => hin ((mem_keys_vOrd ms h).2 hc)
      rw [if_neg hin, ok_bind]
      obtain ⟨r, h1, h2, h3⟩ := ih acc
      refine ⟨r, h1, ?_, ?_⟩
      · rw [h2, List.filter_cons_of_neg (by simpa using ha)]
      · rw [h3, List.filter_cons_of_neg (by simpa using ha)]

/-- **C11a.** In every half-weight average, for a requested interval with at least two available steps and a
cell unmasked in all messages, the value is the weighted sum of the available steps of `[s, s+step]` divided by
the total weight, with weight `dt = step/(count-1)`, halved at the two ends. -/
theorem C11_half_weights (ag : Aggregator) (ms : Messages n) (out : Dict Step (Arr n))
    (htype : ag.aggrType = "average") (hs : 0 < ag.aggrStep) (h2 : ag.secondTRes = false)
    (hh : ag.halfweights = true) (hrun : ag.doManipulation ms = .ok out)
    (i : Fin n) (hmask : ∀ p ∈ ms, p.2.masked i = false)
    (s : Int) (hsr : AvgStart ag.start ag.end_ ag.aggrStep s)
    (hcnt : 2 ≤ (availIn ms s ag.aggrStep).length) :
    ∃ first m, ms.head? = some first ∧
      Dict.get? out (avgKey ag.aggrStep first.1.resolution first.1.level s) = some m ∧
      Arr.data m i = ((availIn ms s ag.aggrStep).map fun h =>
          ((fieldAt ms h).getD Arr.zeros).data i *
            .fin (halfWeight s ag.aggrStep ((availIn ms s ag.aggrStep).length - 1) h)).sum
        / .fin (((availIn ms s ag.aggrStep).map
            (halfWeight s ag.aggrStep ((availIn ms s ag.aggrStep).length - 1))).sum) := by
  rw [doManipulation_avg ag ms htype] at hrun
  obtain ⟨-, first, V, hf, hV, ho⟩ := average_ok ag ms hs out hrun
  have hmem := (avgStart_mem hs h2 s).1 hsr
  refine ⟨first, V s, hf, ?_, ?_⟩
  · rw [ho]; exact get?_of_range (avgKey_inj _ _ _) hmem
  · have hv := hV s hmem
    unfold avgVal avgSums at hv
    simp only [hh, if_true] at hv
    rw [pyRange_pos (by omega : (0 : Int) < 1), ok_bind] at hv
    have hfilt : (rangeList s (s + ag.aggrStep + 1) 1).filter (fun x => decide (x ∈ Dict.keys (vOrd ms)))
        = availIn ms s ag.aggrStep := by
      unfold availIn
      congr 1
      funext x
      exact decide_eq_decide.2 (mem_keys_vOrd ms x)
    rw [hfilt] at hv
    have hc : (0 : Int) < ((availIn ms s ag.aggrStep).length : Int) - 1 := by omega
    rw [if_pos hc] at hv
    have hcq : ((((availIn ms s ag.aggrStep).length : Int) - 1 : Int) : ℚ) ≠ 0 := by
      exact_mod_cast hc.ne'
    have hd1 : Num.ofInt ag.aggrStep / Num.ofInt (((availIn ms s ag.aggrStep).length : Int) - 1)
        = .fin ((ag.aggrStep : ℚ) / (((availIn ms s ag.aggrStep).length : ℚ) - 1)) := by
      rw [Num.ofInt_def, Num.ofInt_def, Num.fin_div_of_ne _ hcq]; push_cast; rfl
    rw [hd1] at hv
    have hd2 : (Num.fin ((ag.aggrStep : ℚ) / (((availIn ms s ag.aggrStep).length : ℚ) - 1)) / 2 : Num)
        = .fin ((ag.aggrStep : ℚ) / (((availIn ms s ag.aggrStep).length : ℚ) - 1) / 2) := by
      rw [Num.ofNat_def, Num.fin_div_of_ne _ (by norm_num)]; norm_num
    rw [hd2] at hv
    obtain ⟨r, hr, h3, h4⟩ := halfFold_ok ms s (s + ag.aggrStep + 1)
      ((ag.aggrStep : ℚ) / (((availIn ms s ag.aggrStep).length : ℚ) - 1))
      ((ag.aggrStep : ℚ) / (((availIn ms s ag.aggrStep).length : ℚ) - 1) / 2) i hmask
      (rangeList s (s + ag.aggrStep + 1) 1) (fun _ => 0, 0)
    rw [hr, ok_bind] at hv
    injection hv with hv
    rw [← hv]
    show r.1 i / r.2 = _
    rw [h3, h4]
    simp only [zero_add]
    have hw : ∀ h : Int, (if h = s ∨ h = s + ag.aggrStep + 1 - 1 then
          (ag.aggrStep : ℚ) / (((availIn ms s ag.aggrStep).length : ℚ) - 1) / 2
        else (ag.aggrStep : ℚ) / (((availIn ms s ag.aggrStep).length : ℚ) - 1))
        = halfWeight s ag.aggrStep ((availIn ms s ag.aggrStep).length - 1) h := by
      intro h; unfold halfWeight
      rw [show s + ag.aggrStep + 1 - 1 = s + ag.aggrStep by ring]
    simp only [hw]
    rfl

/-- Two strictly increasing lists with the same members are equal. -/
theorem eq_of_sorted_mem (l l' : List Int) (h : l.Pairwise (· < ·)) (h' : l'.Pairwise (· < ·))
    (hm : ∀ x, x ∈ l ↔ x ∈ l') : l = l' := by
  have hp : l.Perm l' := (List.perm_ext_iff_of_nodup (h.imp fun h => ne_of_lt h)
    (h'.imp fun h => ne_of_lt h)).2 hm
  exact hp.eq_of_pairwise (le := (· < ·)) (fun a b _ _ h1 h2 => absurd h1 (lt_asymm h2)) h h'

/-- Splitting off both ends of a sum over `0..M+1`. -/
theorem sum_ends (f : Nat → ℚ) (M : Nat) :
    ((List.range (M + 2)).map f).sum = f 0 + ((List.range M).map fun j => f (j + 1)).sum + f (M + 1) := by
  rw [List.range_succ, List.map_append, List.sum_append, List.range_succ_eq_map, List.map_cons,
    List.sum_cons, List.map_map]
  simp [Function.comp_def]

theorem sum_trap (q : Nat → ℚ) (d : ℚ) (M : Nat) :
    ((List.range (M + 1)).map fun j => d * (q j + q (j + 1)) / 2).sum
      = q 0 * (d / 2) + ((List.range M).map fun j => q (j + 1) * d).sum + q (M + 1) * (d / 2) := by
  induction M with
  | zero => simp; ring
  | succ M ih =>
    rw [List.range_succ, List.map_append, List.sum_append, ih,
      List.range_succ (n := M), List.map_append, List.sum_append]
    simp
    ring

theorem sum_fin_map {α : Type} (l : List α) (f : α → ℚ) :
    (l.map fun x => Num.fin (f x)).sum = Num.fin ((l.map f).sum) := by
  induction l with
  | nil => rfl
  | cons x l ih => rw [List.map_cons, List.sum_cons, ih, List.map_cons, List.sum_cons, Num.fin_add]

/-- **C11b.** If exactly the steps `s, s+d, ..., s+N*d = s+step` of `[s, s+step]` are available, with values
`q 0, ..., q N` in a cell, the half-weight average of that cell is the trapezoidal integral
`Σ d*(q_j + q_{j+1})/2` divided by the length of the interval. -/
theorem C11_trapezoid (ag : Aggregator) (ms : Messages n) (out : Dict Step (Arr n))
    (htype : ag.aggrType = "average") (hs : 0 < ag.aggrStep) (h2 : ag.secondTRes = false)
    (hh : ag.halfweights = true) (hrun : ag.doManipulation ms = .ok out)
    (i : Fin n) (hmask : ∀ p ∈ ms, p.2.masked i = false)
    (s : Int) (hsr : AvgStart ag.start ag.end_ ag.aggrStep s)
    (N : Nat) (d : Int) (hN : 0 < N) (hstep : (N : Int) * d = ag.aggrStep)
    (hav : ∀ h, s ≤ h → h ≤ s + ag.aggrStep → (Avail ms h ↔ ∃ j : Nat, j ≤ N ∧ h = s + j * d))
    (q : Nat → ℚ)
    (hq : ∀ j : Nat, j ≤ N → ∃ v, fieldAt ms (s + j * d) = some v ∧ v.data i = .fin (q j)) :
    ∃ first m, ms.head? = some first ∧
      Dict.get? out (avgKey ag.aggrStep first.1.resolution first.1.level s) = some m ∧
      Arr.data m i = .fin (((List.range N).map fun j => (d : ℚ) * (q j + q (j + 1)) / 2).sum / ag.aggrStep) := by
  have hd : 0 < d := by
    by_contra hc
    have : (N : Int) * d ≤ 0 := Int.mul_nonpos_of_nonneg_of_nonpos (by omega) (by omega)
    omega
  obtain ⟨M, rfl⟩ : ∃ M, N = M + 1 := ⟨N - 1, by omega⟩
  have hlist : availIn ms s ag.aggrStep = (List.range (M + 1 + 1)).map fun (j : Nat) => s + (j : Int) * d := by
    apply eq_of_sorted_mem
    · exact (rangeList_pairwise (by omega)).filter _
    · rw [List.pairwise_map]
      refine List.pairwise_lt_range.imp ?_
      intro a b hab
      have : (a : Int) < b := by exact_mod_cast hab
      nlinarith
    · intro x
      unfold availIn
      rw [List.mem_filter, mem_rangeList (by omega)]
      simp only [decide_eq_true_eq, List.mem_map, List.mem_range]
      constructor
      · rintro ⟨⟨k, hk, hlt⟩, hx⟩
        obtain ⟨j, hj, hx⟩ := (hav x (by omega) (by omega)).1 hx
        exact ⟨j, by omega, hx.symm⟩
      · rintro ⟨j, hj, rfl⟩
        have hjn : (j : Int) ≤ ((M + 1 : Nat) : Int) := by exact_mod_cast (by omega : j ≤ M + 1)
        have h1 : s ≤ s + (j : Int) * d := by
          have : 0 ≤ (j : Int) * d := Int.mul_nonneg (by omega) (by omega)
          omega
        have h3 : s + (j : Int) * d ≤ s + ag.aggrStep := by
          have := Int.mul_le_mul_of_nonneg_right hjn (le_of_lt hd)
          omega
        refine ⟨⟨((j : Int) * d).toNat, ?_, by omega⟩, (hav _ h1 h3).2 ⟨j, by omega, rfl⟩⟩
        have : 0 ≤ (j : Int) * d := by omega
        omega
  have hlen : (availIn ms s ag.aggrStep).length = M + 2 := by rw [hlist]; simp
  obtain ⟨first, m, hf, hm, hdat⟩ := C11_half_weights ag ms out htype hs h2 hh hrun i hmask s hsr (by omega)
  refine ⟨first, m, hf, hm, ?_⟩
  rw [hdat, hlen, hlist, List.map_map, List.map_map]
  have hstq : (ag.aggrStep : ℚ) = ((M : ℚ) + 1) * d := by
    have := congrArg (Int.cast : Int → ℚ) hstep
    push_cast at this; linarith
  have hM : ((M : ℚ) + 1) ≠ 0 := by positivity
  have hdq : (d : ℚ) ≠ 0 := by exact_mod_cast hd.ne'
  have hw : ∀ j : Nat, j < M + 1 + 1 → halfWeight s ag.aggrStep (((M + 2 : Nat) : ℚ) - 1) (s + (j : Int) * d)
      = if j = 0 ∨ j = M + 1 then (d : ℚ) / 2 else d := by
    intro j hj
    unfold halfWeight
    have e1 : (ag.aggrStep : ℚ) / (((M + 2 : Nat) : ℚ) - 1) = d := by
      rw [hstq]; push_cast
      rw [show ((M : ℚ) + 2 - 1) = M + 1 by ring, mul_div_cancel_left₀ _ hM]
    rw [e1]
    have e2 : (s + (j : Int) * d = s ∨ s + (j : Int) * d = s + ag.aggrStep) ↔ (j = 0 ∨ j = M + 1) := by
      rw [← hstep]
      constructor
      · rintro (h | h)
        · left
          have : (j : Int) * d = 0 := by omega
          rcases Int.mul_eq_zero.1 this with h | h
          · exact_mod_cast h
          · omega
        · right
          have : (j : Int) * d = ((M + 1 : Nat) : Int) * d := by omega
          exact_mod_cast Int.eq_of_mul_eq_mul_right hd.ne' this
      · rintro (h | h)
        · left; subst h; simp
        · right; subst h; simp
    simp only [e2]
  have hnum : (List.map ((fun h => ((fieldAt ms h).getD Arr.zeros).data i *
        Num.fin (halfWeight s ag.aggrStep (((M + 2 : Nat) : ℚ) - 1) h)) ∘ fun (j : Nat) => s + (j : Int) * d)
        (List.range (M + 1 + 1)))
      = (List.range (M + 1 + 1)).map fun j =>
          Num.fin (q j * if j = 0 ∨ j = M + 1 then (d : ℚ) / 2 else d) := by
    apply List.map_congr_left
    intro j hj
    rw [List.mem_range] at hj
    simp only [Function.comp]
    obtain ⟨v, hv, hvq⟩ := hq j (by omega)
    rw [hv, hw j hj]
    simp only [Option.getD_some]
    rw [hvq, Num.fin_mul]
  have hden : (List.map (halfWeight s ag.aggrStep (((M + 2 : Nat) : ℚ) - 1) ∘ fun (j : Nat) => s + (j : Int) * d)
        (List.range (M + 1 + 1)))
      = (List.range (M + 1 + 1)).map fun j => if j = 0 ∨ j = M + 1 then (d : ℚ) / 2 else d := by
    apply List.map_congr_left
    intro j hj
    rw [List.mem_range] at hj
    simp only [Function.comp]
    exact hw j hj
  rw [hnum, hden, sum_fin_map, sum_ends, sum_ends, sum_trap]
  have hmid : ∀ g : Nat → ℚ, (List.range M).map (fun j => g j * if j + 1 = 0 ∨ j + 1 = M + 1 then (d : ℚ) / 2 else d)
      = (List.range M).map fun j => g j * d := by
    intro g
    apply List.map_congr_left
    intro j hj
    rw [List.mem_range] at hj
    rw [if_neg (by omega)]
  have hmid1 : (List.range M).map (fun j => if j + 1 = 0 ∨ j + 1 = M + 1 then (d : ℚ) / 2 else d)
      = (List.range M).map fun _ => (d : ℚ) := by
    apply List.map_congr_left
    intro j hj
    rw [List.mem_range] at hj
    rw [if_neg (by omega)]
  rw [hmid (fun j => q (j + 1)), hmid1]
  simp only [true_or, if_true, or_true]
  have hds : (d : ℚ) / 2 + ((List.range M).map fun _ => (d : ℚ)).sum + d / 2 = ag.aggrStep := by
    rw [hstq]; simp; ring
  rw [hds, Num.fin_div_of_ne]
  exact_mod_cast hs.ne'

/-- Non-vacuity of C11: messages 0, 6, 12 with values 1, 2, 5; average over [0,12] is
(1/2*1 + 2 + 1/2*5)/2 = 5/2. -/
example : (Demo.avg 12 12 12 true).doManipulation
      [Demo.msg 12 (Demo.f 5), Demo.msg 6 (Demo.f 2), Demo.msg 0 (Demo.f 1)] =
    .ok [(⟨0, 12, 640, 12, 0⟩, ⟨fun _ => .fin (5/2), some fun _ => false⟩)] ∧
    availIn [Demo.msg 12 (Demo.f 5), Demo.msg 6 (Demo.f 2), Demo.msg 0 (Demo.f 1)] 0 12 = [0, 6, 12] := by
  decide +kernel

/-- With fewer than two available steps in the interval the half-weight average is silently not a number
(0/0), in every cell. -/
theorem C11_too_few_steps_nan : ∃ (ag : Aggregator) (ms : Messages 1) (m : Arr 1),
    ag.aggrType = "average" ∧ ag.halfweights = true ∧
    ag.doManipulation ms = .ok [(⟨0, 12, 640, 12, 0⟩, m)] ∧ m.data 0 = .nan :=
  ⟨Demo.avg 12 12 12 true, [Demo.msg 12 (Demo.f 5)], ⟨fun _ => .nan, some fun _ => false⟩, rfl, rfl,
    by decide +kernel, rfl⟩

end PyG2P
