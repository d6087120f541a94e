import Verif.Lemmas.Accumulation
import Verif.Lemmas.Range
import Mathlib.Tactic.FieldSimp
import Mathlib.Algebra.BigOperators.Ring.List

/-! # C01-C07: accumulation -/

namespace PyG2P
open Spec Aggregator
variable {n : Nat}

namespace Demo

/-- One-cell field. -/
def f (q : ℚ) : Arr 1 := ⟨fun _ => .fin q, none⟩
/-- One-cell field masked by the bitmap. -/
def fm (q : ℚ) : Arr 1 := ⟨fun _ => .fin q, some fun _ => true⟩
/-- A message ending at `t`. -/
def msg (t : Int) (a : Arr 1) : Step × Arr 1 := (⟨0, t, 640, 6, 0⟩, a)
/-- accumulation every `step` hours from `start` to `end_`, unit time 24. -/
def acc (start end_ step : Int) (fz : Bool := false) : Aggregator :=
  Aggregator.init "accum" 6 24 step "accumulation" false fz start end_
/-- four messages, not in time order. -/
def ms4 : List (Step × Arr 1) := [msg 6 (f 2), msg 0 (f 1), msg 18 (f 9), msg 12 (f 5)]

end Demo

theorem doManipulation_acc (ag : Aggregator) (ms : Messages n) (h : ag.aggrType = "accumulation") :
    ag.doManipulation ms = ag.accumulation ms := by
  unfold doManipulation
  exact if_pos h

theorem accStart_eq (ag : Aggregator) : ag.accStart = firstEnd ag.start ag.aggrStep := rfl

theorem mem_range_iff {ag : Aggregator} (hs : 0 < ag.aggrStep) {t : Int} :
    t ∈ rangeList ag.accStart (ag.end_ + 1) ag.aggrStep ↔
      InRange (firstEnd ag.start ag.aggrStep) ag.end_ ag.aggrStep t := by
  rw [mem_rangeList hs, accStart_eq]
  unfold InRange
  constructor
  · rintro ⟨k, h1, h2⟩; exact ⟨k, h1, by omega⟩
  · rintro ⟨k, h1, h2⟩; exact ⟨k, h1, by omega⟩

theorem accKey_eq (ag : Aggregator) (res lvl t : Int) :
    accKey ag res lvl t = intervalKey ag.aggrStep res lvl t := rfl

theorem get?_map_key {ag : Aggregator} {res lvl : Int} {l : List Int} {g : Int → Arr n}
    {t : Int} (ht : t ∈ l) :
    Dict.get? (l.map fun t => (accKey ag res lvl t, g t)) (accKey ag res lvl t) = some (g t) := by
  induction l with
  | nil => simp at ht
  | cons u l ih =>
    rw [List.map_cons, Dict.get?_cons]
    by_cases h : u = t
    · subst h; simp
    · have : accKey ag res lvl u ≠ accKey ag res lvl t := by
        intro hc; apply h; have := congrArg Step.endStep hc; exact this
      rw [if_neg this]
      rcases List.mem_cons.1 ht with h' | h'
      · exact absurd h'.symm h
      · exact ih h'

theorem accOut_data (ag : Aggregator) (a b : Arr n) (i : Fin n) :
    (accOut ag a b).data i = (a.data i - b.data i) * Num.ofInt ag.unitTime / Num.ofInt ag.aggrStep := by
  unfold accOut Arr.intoZeros Arr.maskedWhere
  simp only [Num.zero_add']

/-- **C01.** If every end and every start of the requested intervals is available (a missing step 0
counts as zero), the run succeeds and the map of the interval ending at `t` is, in every cell,
`(value at t - value at t-step) * unitTime / step`; with forceZeroArray the value at 0 is zero. -/
theorem C01_accumulation_value (ag : Aggregator) (ms : Messages n) (first : Step × Arr n)
    (htype : ag.aggrType = "accumulation") (hs : 0 < ag.aggrStep) (hfirst : ms.head? = some first)
    (hcur : ∀ t, InRange (firstEnd ag.start ag.aggrStep) ag.end_ ag.aggrStep t →
      Avail ms t ∧ (t - ag.aggrStep = 0 ∨ Avail ms (t - ag.aggrStep))) :
    ∃ out, ag.doManipulation ms = .ok out ∧
      ∀ t, InRange (firstEnd ag.start ag.aggrStep) ag.end_ ag.aggrStep t →
      ∃ m vc, Dict.get? out (intervalKey ag.aggrStep first.1.resolution first.1.level t) = some m ∧
        fieldAt ms t = some vc ∧
        ∀ i, ∃ p : Num, m.data i = (vc.data i - p) * Num.ofInt ag.unitTime / Num.ofInt ag.aggrStep ∧
          (if t = ag.aggrStep ∧ (ag.forceZero = true ∨ ¬ Avail ms 0) then p = 0
           else ∃ vp, fieldAt ms (t - ag.aggrStep) = some vp ∧ p = vp.data i) := by
  rw [doManipulation_acc ag ms htype]
  have hne : ms ≠ [] := by rintro rfl; simp at hfirst
  obtain ⟨out, hout⟩ := accumulation_total ag ms hs hne
    (fun t ht => (hcur t ((mem_range_iff hs).1 ht)).1)
    (fun t ht => (hcur t ((mem_range_iff hs).1 ht)).2)
  refine ⟨out, hout, fun t ht => ?_⟩
  obtain ⟨f', V, hf', hV, ho, -, hz⟩ := accumulation_ok ag ms hs out hout
  rw [hfirst] at hf'; injection hf' with hf'; subst hf'
  obtain ⟨vc, hvc⟩ := Option.isSome_iff_exists.1 ((avail_iff _ _).1 (hcur t ht).1)
  refine ⟨accOut ag (V t)
    (if t - ag.aggrStep = 0 ∧ ag.forceZero = true then Arr.zeros else V (t - ag.aggrStep)),
    vc, ?_, hvc, fun i => ?_⟩
  · rw [ho, ← accKey_eq]
    exact get?_map_key (g := fun t => accOut ag (V t)
      (if t - ag.aggrStep = 0 ∧ ag.forceZero = true then Arr.zeros else V (t - ag.aggrStep)))
      ((mem_range_iff hs).2 ht)
  · refine ⟨(if t - ag.aggrStep = 0 ∧ ag.forceZero = true then Arr.zeros
      else V (t - ag.aggrStep)).data i, ?_, ?_⟩
    · rw [accOut_data, hV t vc hvc]
    · by_cases h0 : t = ag.aggrStep
      · have h0' : t - ag.aggrStep = 0 := by omega
        by_cases hfz : ag.forceZero = true
        · rw [if_pos ⟨h0, Or.inl hfz⟩, if_pos ⟨h0', hfz⟩]; rfl
        · rw [if_neg (c := t - ag.aggrStep = 0 ∧ ag.forceZero = true) (by tauto)]
          by_cases ha : Avail ms 0
          · rw [if_neg (by tauto)]
            obtain ⟨vp, hvp⟩ := Option.isSome_iff_exists.1 ((avail_iff _ _).1 ha)
            rw [h0']
            exact ⟨vp, hvp, by rw [hV 0 vp hvp]⟩
          · rw [if_pos ⟨h0, Or.inr ha⟩, h0']
            have hmem := (mem_range_iff hs).2 ht
            -- `t = step` is the first interval
            have hhead : (rangeList ag.accStart (ag.end_ + 1) ag.aggrStep).head? = some t := by
              cases hl : rangeList ag.accStart (ag.end_ + 1) ag.aggrStep with
              | nil => rw [hl] at hmem; simp at hmem
              | cons u l =>
                by_cases hut : u = t
                · rw [hut]; rfl
                exfalso
                have hum : u ∈ rangeList ag.accStart (ag.end_ + 1) ag.aggrStep := by rw [hl]; simp
                have hpw := rangeList_pairwise (a := ag.accStart) (b := ag.end_ + 1) hs
                rw [hl] at hpw hmem
                have hlt : u < t := by
                  rcases List.mem_cons.1 hmem with h | h
                  · exact absurd h.symm hut
                  · exact (List.pairwise_cons.1 hpw).1 t h
                -- t - step = 0 comes after u, so u ≤ 0
                obtain ⟨k1, hk1, -⟩ := (mem_range_iff hs).1 hum
                obtain ⟨k2, hk2, -⟩ := ht
                have hk : (k1 : Int) + 1 ≤ k2 := by
                  by_contra hc
                  have : (k2 : Int) ≤ k1 := by omega
                  nlinarith
                have huz : u ≤ 0 := by nlinarith
                have hc := hcur u ((mem_range_iff hs).1 hum)
                by_cases hu0 : u = 0
                · subst hu0; exact ha hc.1
                · -- 0 = u + j*step is itself a requested end
                  have : InRange (firstEnd ag.start ag.aggrStep) ag.end_ ag.aggrStep 0 := by
                    refine ⟨k2 - 1, ?_, ?_⟩
                    · push_cast [show 1 ≤ k2 by omega]; linarith
                    · have := (mem_range_iff hs).1 ((hl ▸ hmem))
                      obtain ⟨_, _, h3⟩ := this
                      omega
                  exact ha (hcur 0 this).1
            rw [(hz t hhead).2 h0' ha]; rfl
      · rw [if_neg (by rintro ⟨h, -⟩; omega), if_neg (by rintro ⟨h, -⟩; omega)]
        rcases (hcur t ht).2 with h | h
        · omega
        · obtain ⟨vp, hvp⟩ := Option.isSome_iff_exists.1 ((avail_iff _ _).1 h)
          exact ⟨vp, hvp, by rw [hV _ vp hvp]⟩

/-- Non-vacuity of C01: unordered messages 0,6,12,18, six-hourly accumulation of 12..18. -/
example : (Demo.acc 12 18 6).doManipulation Demo.ms4 =
    .ok [(⟨6, 12, 640, 6, 0⟩, ⟨fun _ => .fin 12, some fun _ => false⟩),
         (⟨12, 18, 640, 6, 0⟩, ⟨fun _ => .fin 16, some fun _ => false⟩)] := by decide +kernel

/-- **C02.** The keys of a successful accumulation are exactly the requested intervals, each once,
in time order. -/
theorem C02_accumulation_keys (ag : Aggregator) (ms : Messages n) (out : Dict Step (Arr n))
    (htype : ag.aggrType = "accumulation") (hs : 0 < ag.aggrStep)
    (hrun : ag.doManipulation ms = .ok out) :
    ∃ first, ms.head? = some first ∧
      (∀ k, k ∈ Dict.keys out ↔
        ∃ t, InRange (firstEnd ag.start ag.aggrStep) ag.end_ ag.aggrStep t ∧
          k = intervalKey ag.aggrStep first.1.resolution first.1.level t) ∧
      (Dict.keys out).Pairwise (fun a b => a.endStep < b.endStep) := by
  rw [doManipulation_acc ag ms htype] at hrun
  obtain ⟨f', V, hf', hV, ho, -, hz⟩ := accumulation_ok ag ms hs out hrun
  refine ⟨f', hf', fun k => ?_, ?_⟩
  · rw [ho, Dict.keys, List.map_map]
    simp only [List.mem_map, Function.comp, mem_range_iff hs, accKey_eq]
    constructor
    · rintro ⟨t, h1, h2⟩; exact ⟨t, h1, h2.symm⟩
    · rintro ⟨t, h1, h2⟩; exact ⟨t, h1, h2.symm⟩
  · rw [ho, Dict.keys, List.map_map, List.pairwise_map]
    exact rangeList_pairwise hs

example : ((Demo.acc 0 18 6).doManipulation Demo.ms4).map Dict.keys =
    .ok [⟨0, 6, 640, 6, 0⟩, ⟨6, 12, 640, 6, 0⟩, ⟨12, 18, 640, 6, 0⟩] := by decide +kernel

theorem fieldAt_mem {ms : Messages n} {t : Int} {a : Arr n} (h : fieldAt ms t = some a) :
    ∃ p ∈ ms, p.2 = a ∧ p.1.endStep = t := by
  unfold fieldAt at h
  cases hl : (ms.filter fun p => p.1.endStep = t).getLast? with
  | none => rw [hl] at h; simp at h
  | some p =>
    rw [hl] at h
    have := List.mem_of_getLast? hl
    rw [List.mem_filter] at this
    exact ⟨p, this.1, by simpa using h, by simpa using this.2⟩

theorem finite_of_lin {ms : Messages n} {i : Fin n} (hfin : FiniteAt ms i) {x w : Int} {a : Arr n}
    (h : LinAt ms x w a) : ∃ q : ℚ, a.data i = .fin q := by
  obtain ⟨o, nx, vO, vN, -, -, ho, hn, hO, hN, rfl⟩ := h
  obtain ⟨p, hp, rfl, -⟩ := fieldAt_mem hO
  obtain ⟨p', hp', rfl, -⟩ := fieldAt_mem hN
  obtain ⟨q, hq⟩ := hfin p hp
  obtain ⟨q', hq'⟩ := hfin p' hp'
  have : ((nx - o : Int) : ℚ) ≠ 0 := by exact_mod_cast (by omega : nx - o ≠ 0)
  refine ⟨q + (q' - q) * (((w - o : Int) : ℚ) / ((nx - o : Int) : ℚ)), ?_⟩
  · unfold linInterp Arr.maskedWhere
    simp only [hq, hq', Num.ofInt_def, Num.fin_div_of_ne _ this, Num.fin_sub, Num.fin_mul, Num.fin_add]

/-- **C03.** For every successful run (gaps filled or not), in every cell with finite input the sum of
the accumulated maps, multiplied by `step`, equals (value at the last interval end - value at the
start of the first interval) * unitTime. -/
theorem C03_accumulation_conserves (ag : Aggregator) (ms : Messages n) (out : Dict Step (Arr n))
    (htype : ag.aggrType = "accumulation") (hs : 0 < ag.aggrStep) (hstart : 0 ≤ ag.start)
    (hrun : ag.doManipulation ms = .ok out)
    (hle : firstEnd ag.start ag.aggrStep ≤ ag.end_)
    (i : Fin n) (hfin : FiniteAt ms i) (qa qb : ℚ)
    (hbase : BaseValue ms ag.forceZero (firstEnd ag.start ag.aggrStep - ag.aggrStep) i qa)
    (hlow : ∃ u, Avail ms u ∧ u ≤ firstEnd ag.start ag.aggrStep)
    (vb : Arr n) (hvb : fieldAt ms (lastEnd (firstEnd ag.start ag.aggrStep) ag.end_ ag.aggrStep) = some vb)
    (hqb : vb.data i = .fin qb) :
    (∀ p ∈ out, ∃ q : ℚ, p.2.data i = .fin q) ∧
    (out.map fun p => toRat (p.2.data i)).sum * ag.aggrStep = (qb - qa) * ag.unitTime := by
  rw [doManipulation_acc ag ms htype] at hrun
  obtain ⟨f', V, hf', hV, ho, hgap, hz⟩ := accumulation_ok ag ms hs out hrun
  rw [accStart_eq] at *
  set s := firstEnd ag.start ag.aggrStep with hsdef
  set st := ag.aggrStep with hst
  have hstq : ((st : Int) : ℚ) ≠ 0 := by exact_mod_cast hs.ne'
  have hmem : ∀ t ∈ rangeList s (ag.end_ + 1) st, s ≤ t := by
    intro t ht
    obtain ⟨k, hk, -⟩ := (mem_rangeList hs).1 ht
    have : (0 : Int) ≤ k := by omega
    nlinarith
  have hfinV : ∀ t ∈ rangeList s (ag.end_ + 1) st, ∃ q : ℚ, (V t).data i = .fin q := by
    intro t ht
    by_cases ha : Avail ms t
    · obtain ⟨a, hfa⟩ := Option.isSome_iff_exists.1 ((avail_iff _ _).1 ha)
      rw [hV t a hfa]
      obtain ⟨p, hp, rfl, -⟩ := fieldAt_mem hfa
      exact hfin p hp
    · refine finite_of_lin hfin (hgap t ht ha ?_)
      obtain ⟨u, hu, hus⟩ := hlow
      have hst' := hmem t ht
      refine ⟨u, hu, lt_of_le_of_ne (le_trans hus hst') ?_⟩
      rintro rfl; exact ha hu
  have hhead : (rangeList s (ag.end_ + 1) st).head? = some s := by
    rw [rangeList_cons hs (by omega)]; rfl
  -- the value subtracted in the first interval
  have hfirst : (if s - st = 0 ∧ ag.forceZero = true then Arr.zeros else V (s - st)).data i = .fin qa := by
    unfold BaseValue at hbase
    by_cases h0 : s - st = 0
    · by_cases hfz : ag.forceZero = true
      · rw [if_pos ⟨h0, Or.inl hfz⟩] at hbase
        rw [if_pos ⟨h0, hfz⟩, hbase]; rfl
      · rw [if_neg (by tauto)]
        by_cases ha : Avail ms 0
        · rw [if_neg (by tauto)] at hbase
          obtain ⟨a, h1, h2⟩ := hbase
          rw [hV _ a h1, h2]
        · rw [if_pos ⟨h0, Or.inr ha⟩] at hbase
          rw [h0, (hz s hhead).2 h0 ha, hbase]; rfl
    · rw [if_neg (by tauto)] at hbase ⊢
      obtain ⟨a, h1, h2⟩ := hbase
      rw [hV _ a h1, h2]
  let q : Int → ℚ := fun t => if t = s - st then qa else toRat ((V t).data i)
  have hval : ∀ t ∈ rangeList s (ag.end_ + 1) st,
      (accOut ag (V t) (if t - st = 0 ∧ ag.forceZero = true then Arr.zeros else V (t - st))).data i
        = .fin ((q t - q (t - st)) * ag.unitTime / st) := by
    intro t ht
    rw [accOut_data]
    have hq : (V t).data i = .fin (q t) := by
      obtain ⟨qq, hqq⟩ := hfinV t ht
      have : t ≠ s - st := by have := hmem t ht; omega
      simp only [q, if_neg this, hqq, toRat]
    have hp : (if t - st = 0 ∧ ag.forceZero = true then Arr.zeros else V (t - st)).data i
        = .fin (q (t - st)) := by
      by_cases hts : t = s
      · subst hts; rw [hfirst]; simp [q]
      · have hgt : s < t := lt_of_le_of_ne (hmem t ht) (Ne.symm hts)
        have hin : t - st ∈ rangeList s (ag.end_ + 1) st := by
          obtain ⟨k, hk, hlt⟩ := (mem_rangeList hs).1 ht
          refine (mem_rangeList hs).2 ⟨k - 1, ?_, by omega⟩
          have : 1 ≤ k := by
            rcases Nat.eq_zero_or_pos k with h | h
            · subst h; simp at hk; omega
            · exact h
          push_cast [this]; linarith
        obtain ⟨qq, hqq⟩ := hfinV _ hin
        have hge := hmem _ hin
        have hne : ¬ (t - st = s - st) := by omega
        by_cases hc : t - st = 0 ∧ ag.forceZero = true
        · -- then `0` is a requested end before `t`, with `s ≤ 0`
          exfalso
          have : 0 < s := by
            simp only [hsdef, firstEnd]; split <;> omega
          omega
        · rw [if_neg hc]
          simp only [q, if_neg hne, hqq, toRat]
    rw [hq, hp]
    simp only [Num.ofInt_def, Num.fin_sub, Num.fin_mul, ← hst, Num.fin_div_of_ne _ hstq]
  refine ⟨?_, ?_⟩
  · intro p hp
    rw [ho] at hp
    obtain ⟨t, ht, rfl⟩ := List.mem_map.1 hp
    exact ⟨_, hval t ht⟩
  · rw [ho, List.map_map]
    rw [List.map_congr_left (g := fun t => (q t - q (t - st)) * (ag.unitTime / st))]
    rotate_left
    · intro t ht
      simp only [Function.comp]
      rw [hval t ht]
      simp only [toRat]; ring
    rw [List.sum_map_mul_right]
    have hN : (ag.end_ - s) / st = (((ag.end_ - s) / st).toNat : Int) := by
      rw [Int.toNat_of_nonneg]; exact Int.ediv_nonneg (by omega) (le_of_lt hs)
    rw [telescope q st hs ((ag.end_ - s) / st).toNat s ag.end_ hle hN, ← hN]
    have h1 : q (s + (ag.end_ - s) / st * st) = qb := by
      have hne : ¬ (s + (ag.end_ - s) / st * st = s - st) := by
        have : 0 ≤ (ag.end_ - s) / st := Int.ediv_nonneg (by omega) (le_of_lt hs)
        nlinarith
      simp only [q, if_neg hne]
      unfold lastEnd at hvb
      rw [hV _ vb hvb, hqb]; rfl
    have h2 : q (s - st) = qa := by simp [q]
    rw [h1, h2]
    field_simp

/-- A run with a gap at 6 (data at 0, 12, 18), used for C03 and C04. -/
def Demo.msGap : List (Step × Arr 1) := [Demo.msg 0 (Demo.f 1), Demo.msg 12 (Demo.f 5), Demo.msg 18 (Demo.f 9)]

/-- Non-vacuity of C03: data at 0, 12, 18, six-hourly; total (9-1)*24 = (8+8+16)*6. -/
example : ∃ out, (Demo.acc 0 18 6).doManipulation Demo.msGap = .ok out ∧
    (out.map fun p => toRat (p.2.data 0)) = [8, 8, 16] ∧
    FiniteAt Demo.msGap 0 ∧ BaseValue Demo.msGap false (firstEnd 0 6 - 6) 0 1 ∧
    (∃ vb, fieldAt Demo.msGap (lastEnd (firstEnd 0 6) 18 6) = some vb ∧ vb.data 0 = .fin 9) := by
  refine ⟨[(⟨0, 6, 640, 6, 0⟩, ⟨fun _ => .fin 8, some fun _ => false⟩),
    (⟨6, 12, 640, 6, 0⟩, ⟨fun _ => .fin 8, some fun _ => false⟩),
    (⟨12, 18, 640, 6, 0⟩, ⟨fun _ => .fin 16, some fun _ => false⟩)], by decide +kernel,
    by decide +kernel, ?_, ?_, Demo.f 9, by decide +kernel, rfl⟩
  · intro p hp
    simp only [Demo.msGap, List.mem_cons, List.not_mem_nil, or_false] at hp
    rcases hp with rfl | rfl | rfl <;> exact ⟨_, rfl⟩
  · unfold BaseValue
    rw [if_neg (by decide)]
    exact ⟨Demo.f 1, by decide +kernel, rfl⟩

/-- **C04 (partial).** In every *successful* run each missing step inside the requested range that has
available data before it is filled with the linear interpolation, at its own time, between the nearest
available steps before and after it, and the maps of the intervals it bounds are computed from it;
available steps are used as they are.
Missing: success. The code searches neighbours by bisection in a key list to which filled steps were
appended at the end, so a run can crash although both neighbours exist (`C04_gap_crash`). -/
theorem C04_gap_filled_partial (ag : Aggregator) (ms : Messages n) (out : Dict Step (Arr n))
    (htype : ag.aggrType = "accumulation") (hs : 0 < ag.aggrStep)
    (hrun : ag.doManipulation ms = .ok out) :
    ∃ (first : Step × Arr n) (F : Int → Arr n), ms.head? = some first ∧
      (∀ t a, fieldAt ms t = some a → F t = a) ∧
      (∀ t, InRange (firstEnd ag.start ag.aggrStep) ag.end_ ag.aggrStep t →
        ∃ m, Dict.get? out (intervalKey ag.aggrStep first.1.resolution first.1.level t) = some m ∧
          ∀ i, m.data i = ((F t).data i -
              (if t = ag.aggrStep ∧ ag.forceZero = true then 0 else (F (t - ag.aggrStep)).data i))
            * Num.ofInt ag.unitTime / Num.ofInt ag.aggrStep) ∧
      (∀ t, InRange (firstEnd ag.start ag.aggrStep) ag.end_ ag.aggrStep t → ¬ Avail ms t →
        (∃ u, Avail ms u ∧ u < t) →
        ∃ o p vo vp, IsPrev ms t o ∧ IsNext ms t p ∧ fieldAt ms o = some vo ∧ fieldAt ms p = some vp ∧
          ∀ i, (F t).data i = linear (vo.data i) (vp.data i) o p t) := by
  rw [doManipulation_acc ag ms htype] at hrun
  obtain ⟨f', V, hf', hV, ho, hgap, hz⟩ := accumulation_ok ag ms hs out hrun
  refine ⟨f', V, hf', hV, fun t ht => ?_, fun t ht hna hlow => ?_⟩
  · refine ⟨accOut ag (V t)
      (if t - ag.aggrStep = 0 ∧ ag.forceZero = true then Arr.zeros else V (t - ag.aggrStep)), ?_, fun i => ?_⟩
    · rw [ho, ← accKey_eq]
      exact get?_map_key (g := fun t => accOut ag (V t)
        (if t - ag.aggrStep = 0 ∧ ag.forceZero = true then Arr.zeros else V (t - ag.aggrStep)))
        ((mem_range_iff hs).2 ht)
    · rw [accOut_data]
      congr 3
      by_cases h : t = ag.aggrStep ∧ ag.forceZero = true
      · rw [if_pos h, if_pos ⟨by omega, h.2⟩]; rfl
      · rw [if_neg h, if_neg (by rintro ⟨h1, h2⟩; exact h ⟨by omega, h2⟩)]
  · obtain ⟨o, nx, vO, vN, h1, h2, -, -, h3, h4, h5⟩ := hgap t ((mem_range_iff hs).2 ht) hna hlow
    refine ⟨o, nx, vO, vN, h1, h2, h3, h4, fun i => ?_⟩
    rw [h5]; rfl

/-- Non-vacuity of C04: a run with one filled gap. -/
example : (Demo.acc 0 18 6).doManipulation Demo.msGap =
    .ok [(⟨0, 6, 640, 6, 0⟩, ⟨fun _ => .fin 8, some fun _ => false⟩),
      (⟨6, 12, 640, 6, 0⟩, ⟨fun _ => .fin 8, some fun _ => false⟩),
      (⟨12, 18, 640, 6, 0⟩, ⟨fun _ => .fin 16, some fun _ => false⟩)] := by decide +kernel

/-- **C04 is violated** as an unconditional claim: six-hourly data 0, 6 accumulated hourly crashes with
an `IndexError` although every missing hour has available steps before and after it. -/
theorem C04_gap_crash :
    ∃ (ag : Aggregator) (ms : Messages 1), ag.aggrType = "accumulation" ∧ 0 < ag.aggrStep ∧
      (∀ t, InRange (firstEnd ag.start ag.aggrStep) ag.end_ ag.aggrStep t →
        ∃ o p, IsPrev ms t o ∧ IsNext ms t p) ∧
      ag.doManipulation ms = .error .indexError := by
  refine ⟨Demo.acc 1 6 1, [Demo.msg 0 (Demo.f 0), Demo.msg 6 (Demo.f 6)], rfl, by decide, ?_,
    by decide +kernel⟩
  rintro t ⟨k, hk, ht⟩
  have hk' : t = 1 + k := by rw [hk]; simp [Demo.acc, Aggregator.init, firstEnd]
  have ht' : t ≤ 6 := ht
  have hav : ∀ w, Avail [Demo.msg 0 (Demo.f 0), Demo.msg 6 (Demo.f 6)] w ↔ w = 0 ∨ w = 6 := by
    intro w; unfold Avail Demo.msg; simp [eq_comm]
  by_cases h6 : t = 6
  · refine ⟨6, 6, ⟨(hav 6).2 (by simp), by omega, ?_⟩, (hav 6).2 (by simp), by omega, ?_⟩ <;>
      · intro w hw _; rcases (hav w).1 hw with h | h <;> omega
  · refine ⟨0, 6, ⟨(hav 0).2 (by simp), by omega, ?_⟩, (hav 6).2 (by simp), by omega, ?_⟩ <;>
      · intro w hw _; rcases (hav w).1 hw with h | h <;> omega

/-- **C05 (partial).** What holds of the field used for a missing start `s` of the first interval
(`s > 0`, data before it): it lies on the line through the nearest available steps around `s`, but is
evaluated at the interval *end*, so it is right only where the two neighbouring fields agree. -/
theorem C05_first_start_partial (ag : Aggregator) (ms : Messages n) (out : Dict Step (Arr n))
    (htype : ag.aggrType = "accumulation") (hs : 0 < ag.aggrStep)
    (hrun : ag.doManipulation ms = .ok out) (hle : firstEnd ag.start ag.aggrStep ≤ ag.end_)
    (hpos : 0 < firstEnd ag.start ag.aggrStep - ag.aggrStep)
    (hna : ¬ Avail ms (firstEnd ag.start ag.aggrStep - ag.aggrStep))
    (hlow : ∃ u, Avail ms u ∧ u < firstEnd ag.start ag.aggrStep - ag.aggrStep)
    (cur : Arr n) (hcur : fieldAt ms (firstEnd ag.start ag.aggrStep) = some cur) :
    ∃ first m o p vo vp, ms.head? = some first ∧
      Dict.get? out (intervalKey ag.aggrStep first.1.resolution first.1.level
        (firstEnd ag.start ag.aggrStep)) = some m ∧
      IsPrev ms (firstEnd ag.start ag.aggrStep - ag.aggrStep) o ∧
      IsNext ms (firstEnd ag.start ag.aggrStep - ag.aggrStep) p ∧
      fieldAt ms o = some vo ∧ fieldAt ms p = some vp ∧
      ∀ i, Arr.data m i = (cur.data i -
          linear (Arr.data vo i) (Arr.data vp i) o p (firstEnd ag.start ag.aggrStep))
        * Num.ofInt ag.unitTime / Num.ofInt ag.aggrStep := by
  rw [doManipulation_acc ag ms htype] at hrun
  obtain ⟨f', V, hf', hV, ho, hgap, hz⟩ := accumulation_ok ag ms hs out hrun
  rw [accStart_eq] at *
  set s := firstEnd ag.start ag.aggrStep with hsdef
  have hhead : (rangeList s (ag.end_ + 1) ag.aggrStep).head? = some s := by
    rw [rangeList_cons hs (by omega)]; rfl
  obtain ⟨o, nx, vO, vN, h1, h2, -, -, h3, h4, h5⟩ := (hz s hhead).1 hpos hna hlow
  refine ⟨f', accOut ag (V s) (if s - ag.aggrStep = 0 ∧ ag.forceZero = true then Arr.zeros
      else V (s - ag.aggrStep)), o, nx, vO, vN, hf', ?_, h1, h2, h3, h4, fun i => ?_⟩
  · rw [ho, ← accKey_eq]
    refine get?_map_key (g := fun t => accOut ag (V t)
      (if t - ag.aggrStep = 0 ∧ ag.forceZero = true then Arr.zeros else V (t - ag.aggrStep))) ?_
    exact (mem_rangeList hs).2 ⟨0, by simp, by omega⟩
  · rw [accOut_data, if_neg (by omega), h5, hV _ _ hcur]; rfl

/-- Non-vacuity of `C05_first_start_partial`: see `C05_violated`, whose run meets its hypotheses. -/
example : 0 < firstEnd 12 3 - 3 ∧
    ¬ Avail [Demo.msg 6 (Demo.f 6), Demo.msg 12 (Demo.f 12)] (firstEnd 12 3 - 3) ∧
    Avail [Demo.msg 6 (Demo.f 6), Demo.msg 12 (Demo.f 12)] 6 := by decide +kernel

/-- **C05 is violated**, for *every* such run with different finite neighbours: the line evaluated at
the interval end differs from the line evaluated at the interval start. -/
theorem C05_weight_wrong (a b : ℚ) (o p s step : Int) (hab : a ≠ b) (hop : o < p) (hs : 0 < step) :
    linear (.fin a) (.fin b) o p s ≠ linear (.fin a) (.fin b) o p (s - step) := by
  have hne : ((p - o : Int) : ℚ) ≠ 0 := by exact_mod_cast (by omega : p - o ≠ 0)
  unfold linear
  simp only [Num.ofInt_def, Num.fin_div_of_ne _ hne, Num.fin_sub, Num.fin_mul, Num.fin_add, ne_eq,
    Num.fin_inj]
  intro h
  have h1 : (b - a) * (((s : ℚ) - o) / (p - o : Int)) = (b - a) * (((s : ℚ) - step - o) / (p - o : Int)) := by
    push_cast at h ⊢; linarith
  have hba : b - a ≠ 0 := sub_ne_zero.2 (Ne.symm hab)
  have h2 := mul_left_cancel₀ hba h1
  rw [div_eq_div_iff hne hne] at h2
  have h3 := mul_right_cancel₀ hne h2
  have : (step : ℚ) ≠ 0 := by exact_mod_cast hs.ne'
  apply this; linarith

/-- C05 on a concrete run: value 6h/12h data, accumulating (9,12] of a field growing by 1 per hour should
give 3*24/3 = 24, the code gives 0. -/
theorem C05_violated : ∃ (ag : Aggregator) (ms : Messages 1) (m : Arr 1),
    ag.aggrType = "accumulation" ∧ ag.doManipulation ms = .ok [(⟨9, 12, 640, 3, 0⟩, m)] ∧
    (∀ p ∈ ms, p.2.data 0 = .fin p.1.endStep) ∧ m.data 0 = .fin 0 ∧
    (∃ a b, fieldAt ms 6 = some a ∧ fieldAt ms 12 = some b ∧
      (b.data 0 - linear (a.data 0) (b.data 0) 6 12 9) * Num.ofInt ag.unitTime / Num.ofInt ag.aggrStep
        = .fin 24) := by
  refine ⟨Demo.acc 12 12 3, [Demo.msg 6 (Demo.f 6), Demo.msg 12 (Demo.f 12)],
    ⟨fun _ => .fin 0, some fun _ => false⟩, rfl, by decide +kernel, by decide +kernel, rfl,
    Demo.f 6, Demo.f 12, by decide +kernel, by decide +kernel, by decide +kernel⟩

/-- **C06a.** Accumulating from start 0 is accumulating from start = step. -/
theorem C06_start_zero (ag : Aggregator) (ms : Messages n) (htype : ag.aggrType = "accumulation")
    (h0 : ag.start = 0) :
    ag.doManipulation ms = ({ ag with start := ag.aggrStep } : Aggregator).doManipulation ms := by
  rw [doManipulation_acc ag ms htype,
    doManipulation_acc ({ ag with start := ag.aggrStep } : Aggregator) ms htype]
  unfold accumulation
  have h1 : ag.accStart = ag.aggrStep := by unfold accStart; rw [if_pos h0]
  have h2 : ({ ag with start := ag.aggrStep } : Aggregator).accStart = ag.aggrStep := by
    unfold accStart; split <;> rfl
  rw [h1, h2]
  rfl

/-- **C06b.** In every successful run from 0 (or from `step`), if step 0 is absent or forceZeroArray is
on, the first map is `value at step * unitTime / step`: the field at 0 counts as all zero. -/
theorem C06_zero_base (ag : Aggregator) (ms : Messages n) (out : Dict Step (Arr n))
    (htype : ag.aggrType = "accumulation") (hs : 0 < ag.aggrStep)
    (hstart : ag.start = 0 ∨ ag.start = ag.aggrStep) (hle : ag.aggrStep ≤ ag.end_)
    (hz : ag.forceZero = true ∨ ¬ Avail ms 0)
    (hrun : ag.doManipulation ms = .ok out) (cur : Arr n) (hcur : fieldAt ms ag.aggrStep = some cur) :
    ∃ first m, ms.head? = some first ∧
      Dict.get? out (intervalKey ag.aggrStep first.1.resolution first.1.level ag.aggrStep) = some m ∧
      ∀ i, Arr.data m i = (cur.data i - 0) * Num.ofInt ag.unitTime / Num.ofInt ag.aggrStep := by
  rw [doManipulation_acc ag ms htype] at hrun
  obtain ⟨f', V, hf', hV, ho, hgap, hzz⟩ := accumulation_ok ag ms hs out hrun
  have hS : ag.accStart = ag.aggrStep := by
    unfold accStart; rcases hstart with h | h
    · rw [if_pos h]
    · rw [if_neg (by omega), h]
  rw [hS] at ho hzz
  have hmem : ag.aggrStep ∈ rangeList ag.aggrStep (ag.end_ + 1) ag.aggrStep :=
    (mem_rangeList hs).2 ⟨0, by simp, by omega⟩
  have hhead : (rangeList ag.aggrStep (ag.end_ + 1) ag.aggrStep).head? = some ag.aggrStep := by
    rw [rangeList_cons hs (by omega)]; rfl
  refine ⟨f', accOut ag (V ag.aggrStep) (if ag.aggrStep - ag.aggrStep = 0 ∧ ag.forceZero = true
    then Arr.zeros else V (ag.aggrStep - ag.aggrStep)), hf', ?_, fun i => ?_⟩
  · rw [ho, ← accKey_eq]
    exact get?_map_key (g := fun t => accOut ag (V t)
      (if t - ag.aggrStep = 0 ∧ ag.forceZero = true then Arr.zeros else V (t - ag.aggrStep))) hmem
  · rw [accOut_data, hV _ _ hcur]
    congr 3
    by_cases hfz : ag.forceZero = true
    · rw [if_pos ⟨by omega, hfz⟩]; rfl
    · rw [if_neg (by tauto), sub_self, (hzz _ hhead).2 (by omega) (by tauto)]; rfl

/-- forceZeroArray is only read when the interval starts at 0. -/
theorem accPrev_force (ag : Aggregator) (vo : Dict Int (Arr n)) (prev : Int) (h : prev ≠ 0) (b : Bool) :
    accPrev { ag with forceZero := b } vo prev = Dict.getE vo prev := by
  unfold accPrev; rw [if_neg (by tauto)]

/-- **C06c.** forceZeroArray affects the interval starting at 0 only: with and without it a run fails with
the same error or both succeed, and all maps of intervals not starting at 0 are the same. -/
theorem C06_force_zero_first_only (ag : Aggregator) (ms : Messages n)
    (htype : ag.aggrType = "accumulation") (hs : 0 < ag.aggrStep) :
    (∃ e, ({ ag with forceZero := true } : Aggregator).doManipulation ms = .error e ∧
       ({ ag with forceZero := false } : Aggregator).doManipulation ms = .error e) ∨
    (∃ o1 o2, ({ ag with forceZero := true } : Aggregator).doManipulation ms = .ok o1 ∧
       ({ ag with forceZero := false } : Aggregator).doManipulation ms = .ok o2 ∧
       Dict.keys o1 = Dict.keys o2 ∧
       ∀ k, k.startStep ≠ 0 → Dict.get? o1 k = Dict.get? o2 k) := by
  rw [doManipulation_acc ({ ag with forceZero := true } : Aggregator) ms htype,
    doManipulation_acc ({ ag with forceZero := false } : Aggregator) ms htype]
  unfold accumulation
  cases hp : pyGet (Dict.keys ms) 0 with
  | error e => exact Or.inl ⟨e, rfl, rfl⟩
  | ok first =>
    rw [ok_bind, ok_bind]
    have hr : pyRange ag.accStart (ag.end_ + 1) ag.aggrStep
      = .ok (rangeList ag.accStart (ag.end_ + 1) ag.aggrStep) := pyRange_pos hs
    have e1 : ({ ag with forceZero := true } : Aggregator).accStart = ag.accStart := rfl
    have e2 : ({ ag with forceZero := false } : Aggregator).accStart = ag.accStart := rfl
    rw [e1, e2]
    dsimp only
    rw [hr, ok_bind, ok_bind]
    have key := foldlM_rel
      (accIter { ag with forceZero := true } first.resolution first.level)
      (accIter { ag with forceZero := false } first.resolution first.level)
      (fun s t : AccSt n => s.vOrd = t.vOrd ∧ s.zero = t.zero ∧
        (s.zero = true → 0 ∈ Dict.keys s.vOrd) ∧ Dict.keys s.out = Dict.keys t.out ∧
        ∀ k : Step, k.startStep ≠ 0 → Dict.get? s.out k = Dict.get? t.out k)
      (rangeList ag.accStart (ag.end_ + 1) ag.aggrStep)
      ⟨vOrd ms, false, []⟩ ⟨vOrd ms, false, []⟩ ⟨rfl, rfl, by simp, rfl, fun _ _ => rfl⟩ (by
        rintro it - ⟨svo, sz, so⟩ ⟨tvo, tz, tout⟩ ⟨h1, h2, h0, h3, h4⟩
        dsimp only at h1 h2 h3 h4 h0
        subst h1 h2
        unfold accIter
        dsimp only
        cases hc : accFillCur (Dict.keys svo) svo it with
        | error e => exact Or.inl ⟨e, rfl, rfl⟩
        | ok vo1 =>
          rw [ok_bind, ok_bind]
          cases hf : accFillPrev (Dict.keys svo) vo1 sz it (it - ag.aggrStep) with
          | error e => exact Or.inl ⟨e, rfl, rfl⟩
          | ok r =>
            obtain ⟨vo2, z⟩ := r
            rw [ok_bind, ok_bind]
            dsimp only
            -- keys only grow
            have hsub1 : ∀ k ∈ Dict.keys svo, k ∈ Dict.keys vo1 := by
              intro k hk
              unfold accFillCur at hc
              split at hc
              · injection hc with hc; rwa [← hc]
              · simp only [bind_ok_iff] at hc
                obtain ⟨_, _, _, _, _, _, _, _, hc⟩ := hc
                injection hc with hc
                rw [← hc, Dict.mem_keys_set]; exact Or.inr hk
            have hz2 : (it - ag.aggrStep = 0 → 0 ∈ Dict.keys vo2) ∧ (z = true → 0 ∈ Dict.keys vo2) := by
              unfold accFillPrev at hf
              split at hf
              · rename_i hcond
                simp only [bind_ok_iff] at hf
                obtain ⟨nx, _, hf⟩ := hf
                split at hf
                · injection hf with hf
                  injection hf with hf1 hf2
                  rw [← hf1]
                  have : (0 : Int) ∈ Dict.keys (Dict.set vo1 0 (Arr.zeros : Arr n)) :=
                    Dict.mem_keys_set.2 (Or.inl rfl)
                  exact ⟨fun _ => this, fun _ => this⟩
                · rename_i hne
                  simp only [bind_ok_iff] at hf
                  obtain ⟨_, _, _, _, _, _, hf⟩ := hf
                  injection hf with hf
                  injection hf with hf1 hf2
                  refine ⟨fun h => absurd h hne, fun h => ?_⟩
                  rw [← hf2, hcond.2.2] at h; cases h
              · rename_i hcond
                injection hf with hf
                injection hf with hf1 hf2
                subst hf1 hf2
                refine ⟨fun h => ?_, fun h => hsub1 0 (h0 h)⟩
                by_cases hz : sz = true
                · exact hsub1 0 (h0 hz)
                · apply hsub1
                  by_contra hn
                  apply hcond
                  rw [h]
                  exact ⟨le_refl _, hn, by simpa using hz⟩
            by_cases hprev : it - ag.aggrStep = 0
            · obtain ⟨v0, hv0⟩ := Dict.exists_of_mem_keys (hz2.1 hprev)
              have ha : accPrev { ag with forceZero := true } vo2 (it - ag.aggrStep) = .ok Arr.zeros := by
                unfold accPrev; rw [if_pos ⟨hprev, rfl⟩]
              have hb : accPrev { ag with forceZero := false } vo2 (it - ag.aggrStep) = .ok v0 := by
                unfold accPrev; rw [if_neg (by simp), hprev]; exact Dict.getE_of_get? hv0
              rw [ha, hb, ok_bind, ok_bind]
              cases hg : Dict.getE vo2 it with
              | error e => exact Or.inl ⟨e, rfl, rfl⟩
              | ok vc =>
                refine Or.inr ⟨_, _, rfl, rfl, rfl, rfl, hz2.2, ?_, ?_⟩
                · dsimp only
                  rw [Dict.keys_set, Dict.keys_set, h3]
                · intro k hk
                  dsimp only
                  rw [Dict.get?_set, Dict.get?_set, if_neg, if_neg]
                  · exact h4 k hk
                  · rintro rfl; exact hk hprev
                  · rintro rfl; exact hk hprev
            · rw [accPrev_force ag vo2 _ hprev, accPrev_force ag vo2 _ hprev]
              cases hgp : Dict.getE vo2 (it - ag.aggrStep) with
              | error e => exact Or.inl ⟨e, rfl, rfl⟩
              | ok vp =>
                rw [ok_bind, ok_bind]
                cases hg : Dict.getE vo2 it with
                | error e => exact Or.inl ⟨e, rfl, rfl⟩
                | ok vc =>
                  refine Or.inr ⟨_, _, rfl, rfl, rfl, rfl, hz2.2, ?_, ?_⟩
                  · dsimp only
                    rw [Dict.keys_set, Dict.keys_set, h3]
                  · intro k hk
                    dsimp only
                    rw [Dict.get?_set, Dict.get?_set]
                    split
                    · rfl
                    · exact h4 k hk)
    rcases key with ⟨e, k1, k2⟩ | ⟨s, t, k1, k2, -, -, -, k3, k4⟩
    · exact Or.inl ⟨e, by rw [k1]; rfl, by rw [k2]; rfl⟩
    · exact Or.inr ⟨s.out, t.out, by rw [k1]; rfl, by rw [k2]; rfl, k3, k4⟩

/-- Non-vacuity of C06: with the message at 0 equal to 1 the first maps differ (8 vs 4), the second agree. -/
example : (Demo.acc 0 12 6 true).doManipulation Demo.ms4 =
      .ok [(⟨0, 6, 640, 6, 0⟩, ⟨fun _ => .fin 8, some fun _ => false⟩),
        (⟨6, 12, 640, 6, 0⟩, ⟨fun _ => .fin 12, some fun _ => false⟩)] ∧
    (Demo.acc 0 12 6 false).doManipulation Demo.ms4 =
      .ok [(⟨0, 6, 640, 6, 0⟩, ⟨fun _ => .fin 4, some fun _ => false⟩),
        (⟨6, 12, 640, 6, 0⟩, ⟨fun _ => .fin 12, some fun _ => false⟩)] := by decide +kernel

/-- **C07 (partial).** Accumulation masks exactly the cells masked in the field at the interval *start*
(none when that field is the zero field). Missing: the mask of the field at the interval end is lost
(`C07_mask_lost_accumulation`), and average and instantaneous lose all masks (`C07_mask_lost_average`,
`C07_mask_lost_instantaneous`). -/
theorem C07_start_mask_kept_partial (ag : Aggregator) (ms : Messages n) (out : Dict Step (Arr n))
    (htype : ag.aggrType = "accumulation") (hs : 0 < ag.aggrStep)
    (hrun : ag.doManipulation ms = .ok out) (t : Int)
    (ht : InRange (firstEnd ag.start ag.aggrStep) ag.end_ ag.aggrStep t)
    (hnz : ¬ (t = ag.aggrStep ∧ ag.forceZero = true))
    (vp : Arr n) (hvp : fieldAt ms (t - ag.aggrStep) = some vp) :
    ∃ first m, ms.head? = some first ∧
      Dict.get? out (intervalKey ag.aggrStep first.1.resolution first.1.level t) = some m ∧
      ∀ i, Arr.masked m i = vp.masked i := by
  rw [doManipulation_acc ag ms htype] at hrun
  obtain ⟨f', V, hf', hV, ho, hgap, hzz⟩ := accumulation_ok ag ms hs out hrun
  refine ⟨f', accOut ag (V t) (if t - ag.aggrStep = 0 ∧ ag.forceZero = true
    then Arr.zeros else V (t - ag.aggrStep)), hf', ?_, fun i => ?_⟩
  · rw [ho, ← accKey_eq]
    exact get?_map_key (g := fun t => accOut ag (V t)
      (if t - ag.aggrStep = 0 ∧ ag.forceZero = true then Arr.zeros else V (t - ag.aggrStep)))
      ((mem_range_iff hs).2 ht)
  · rw [if_neg (by rintro ⟨h1, h2⟩; exact hnz ⟨by omega, h2⟩), hV _ _ hvp]
    unfold accOut Arr.masked Arr.maskedWhere Arr.getMasks Arr.intoZeros Arr.getMasks
    simp only [Arr.getMasks]
    cases vp.mask <;> rfl

/-- Non-vacuity: the field at 6 is masked, so is the map of (6,12]. -/
example : (Demo.acc 12 12 6).doManipulation [Demo.msg 6 (Demo.fm 2), Demo.msg 12 (Demo.f 5)] =
    .ok [(⟨6, 12, 640, 6, 0⟩, ⟨fun _ => .fin 12, some fun _ => true⟩)] := by decide +kernel

/-- **C07 is violated**: the field at the interval end is masked, the map is not. -/
theorem C07_mask_lost_accumulation : ∃ (ag : Aggregator) (ms : Messages 1) (m v : Arr 1),
    ag.aggrType = "accumulation" ∧ ag.doManipulation ms = .ok [(⟨6, 12, 640, 6, 0⟩, m)] ∧
    fieldAt ms 12 = some v ∧ v.masked 0 = true ∧ m.masked 0 = false :=
  ⟨Demo.acc 12 12 6, [Demo.msg 6 (Demo.f 2), Demo.msg 12 (Demo.fm 5)],
    ⟨fun _ => .fin 12, some fun _ => false⟩, Demo.fm 5,
    rfl, by decide +kernel, by decide +kernel, rfl, rfl⟩

end PyG2P
