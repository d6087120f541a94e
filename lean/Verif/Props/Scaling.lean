import Verif.Props.Conversion
import Verif.Lemmas.Average
import Mathlib.Tactic.Ring

/-! # C15: aggregation commutes with a linear unit conversion -/

namespace PyG2P
open Spec Aggregator
variable {n : Nat}

/-- The field in the other unit: every number multiplied by `k`, same mask. -/
def Spec.times (k : ℚ) (a : Arr n) : Arr n := ⟨fun i => a.data i * .fin k, a.mask⟩

/-- A set of maps in the other unit. -/
def Spec.timesAll {κ : Type} (k : ℚ) (d : Dict κ (Arr n)) : Dict κ (Arr n) :=
  d.map fun p => (p.1, times k p.2)

theorem foldlM_map_eq {ε α β γ : Type} (f : β → α → Except ε β) (g : γ → α → Except ε γ) (φ : β → γ)
    (h : ∀ s a, g (φ s) a = (f s a).map φ) (l : List α) (s : β) :
    l.foldlM g (φ s) = (l.foldlM f s).map φ := by
  induction l generalizing s with
  | nil => rfl
  | cons a l ih =>
    simp only [List.foldlM_cons, h]
    cases hfa : f s a with
    | error e => rfl
    | ok b => exact ih b

theorem bind_map' {ε α β γ : Type} (x : Except ε α) (φ : α → β) (g : β → Except ε γ) :
    (x.map φ >>= g) = (x >>= fun a => g (φ a)) := by cases x <;> rfl

theorem map_bind' {ε α β γ : Type} (x : Except ε α) (f : α → Except ε β) (φ : β → γ) :
    (x >>= f).map φ = (x >>= fun a => (f a).map φ) := by cases x <;> rfl

section dict
variable {κ : Type} [DecidableEq κ] (k : ℚ)

theorem keys_timesAll (d : Dict κ (Arr n)) : Dict.keys (timesAll k d) = Dict.keys d := by
  simp [Dict.keys, timesAll]

theorem get?_timesAll (d : Dict κ (Arr n)) (x : κ) :
    Dict.get? (timesAll k d) x = (Dict.get? d x).map (times k) := by
  induction d with
  | nil => rfl
  | cons p d ih =>
    obtain ⟨a, b⟩ := p
    simp only [timesAll, List.map_cons, Dict.get?] at ih ⊢
    split_ifs <;> simp [ih]

theorem getE_timesAll (d : Dict κ (Arr n)) (x : κ) :
    Dict.getE (timesAll k d) x = (Dict.getE d x).map (times k) := by
  unfold Dict.getE; rw [get?_timesAll]; cases Dict.get? d x <;> rfl

theorem set_timesAll (d : Dict κ (Arr n)) (x : κ) (a : Arr n) :
    Dict.set (timesAll k d) x (times k a) = timesAll k (Dict.set d x a) := by
  induction d with
  | nil => rfl
  | cons p d ih =>
    obtain ⟨y, b⟩ := p
    simp only [timesAll, List.map_cons, Dict.set] at ih ⊢
    split_ifs <;> simp [ih]
end dict

theorem ofPairs_timesAll {κ : Type} [DecidableEq κ] (k : ℚ) (l : List (κ × Arr n)) :
    Dict.ofPairs (timesAll k l) = timesAll k (Dict.ofPairs l) := by
  have : ∀ d : Dict κ (Arr n), (timesAll k l).foldl (fun d p => Dict.set d p.1 p.2) (timesAll k d) =
      timesAll k (l.foldl (fun d p => Dict.set d p.1 p.2) d) := by
    induction l with
    | nil => intro d; rfl
    | cons p l ih =>
      intro d
      have h := ih (Dict.set d p.1 p.2)
      rw [← set_timesAll] at h
      exact h
  exact this []

theorem sortedBy_map {α β : Type} (φ : α → β) (f : α → Int) (g : β → Int) (h : ∀ a, g (φ a) = f a)
    (l : List α) : sortedBy g (l.map φ) = (sortedBy f l).map φ := by
  unfold sortedBy
  rw [List.map_insertionSort (r := fun a b => f a ≤ f b) (s := fun a b => g a ≤ g b)]
  intro a _ b _
  rw [h, h]

theorem vOrd_timesAll (k : ℚ) (ms : Messages n) : vOrd (timesAll k ms) = timesAll k (vOrd ms) := by
  unfold vOrd
  have h1 : (timesAll k ms).map (fun p => (p.1.endStep, p.2)) =
      timesAll k (ms.map fun p => (p.1.endStep, p.2)) := by
    simp [timesAll, List.map_map, Function.comp_def]
  rw [h1, ofPairs_timesAll]
  exact sortedBy_map _ _ _ (fun a => rfl) _

theorem getMasks_times (k : ℚ) (a b : Arr n) :
    Arr.getMasks [times k a, times k b] = Arr.getMasks [a, b] := rfl

theorem linInterp_times (k : ℚ) (a b : Arr n) (it o nx : Int) :
    linInterp (times k a) (times k b) it o nx = times k (linInterp a b it o nx) := by
  unfold linInterp
  rw [getMasks_times]
  simp only [times, Arr.maskedWhere, Arr.mk.injEq, and_true]
  funext i
  generalize Num.ofInt (it - o) / Num.ofInt (nx - o) = w
  cases a.data i <;> cases b.data i <;> cases w <;> simp
  ring

theorem zeros_times (k : ℚ) : times k (Arr.zeros : Arr n) = Arr.zeros := by
  simp only [times, Arr.zeros, Arr.mk.injEq, and_true]
  funext i
  rw [Num.zero_def, Num.fin_mul, zero_mul]

theorem intoZeros_times (k : ℚ) (a : Arr n) : (times k a).intoZeros = times k a.intoZeros := by
  simp only [times, Arr.intoZeros, Arr.mk.injEq, and_true]
  funext i
  rw [Num.zero_add', Num.zero_add']

theorem accFillCur_times (k : ℚ) (keys : List Int) (vo : Dict Int (Arr n)) (it : Int) :
    accFillCur keys (timesAll k vo) it = (accFillCur keys vo it).map (timesAll k) := by
  unfold accFillCur
  split_ifs
  · rfl
  · simp only [getE_timesAll, map_bind', bind_map']
    refine bind_congr fun nt => ?_
    refine bind_congr fun vN => ?_
    refine bind_congr fun ot => ?_
    refine bind_congr fun vO => ?_
    rw [linInterp_times, set_timesAll]; rfl

theorem accFillPrev_times (k : ℚ) (keys : List Int) (vo : Dict Int (Arr n)) (z : Bool) (it prev : Int) :
    accFillPrev keys (timesAll k vo) z it prev =
      (accFillPrev keys vo z it prev).map (fun p => (timesAll k p.1, p.2)) := by
  unfold accFillPrev
  by_cases h1 : 0 ≤ prev ∧ prev ∉ keys ∧ z = false
  · rw [if_pos h1, if_pos h1]
    dsimp only
    rw [map_bind']
    refine bind_congr fun nt => ?_
    by_cases h2 : prev = 0
    · rw [if_pos h2, if_pos h2]
      have := set_timesAll k vo 0 Arr.zeros
      rw [zeros_times] at this
      rw [this]; rfl
    · rw [if_neg h2, if_neg h2]
      simp only [getE_timesAll, map_bind', bind_map']
      refine bind_congr fun vN => ?_
      refine bind_congr fun ot => ?_
      refine bind_congr fun vO => ?_
      rw [linInterp_times, set_timesAll]; rfl
  · rw [if_neg h1, if_neg h1]; rfl

theorem accOut_times (k : ℚ) (ag : Aggregator) (a b : Arr n) :
    accOut ag (times k a) (times k b) = times k (accOut ag a b) := by
  unfold accOut
  simp only [intoZeros_times, getMasks_times]
  simp only [times, Arr.maskedWhere, Arr.mk.injEq, and_true]
  funext i
  rw [← Num.sub_mul', Num.mul_assoc', Num.mul_comm' (.fin k), ← Num.mul_assoc', Num.mul_comm' _ (.fin k),
    Num.mul_div', Num.mul_comm']

theorem accPrev_times (k : ℚ) (ag : Aggregator) (vo : Dict Int (Arr n)) (p : Int) :
    accPrev ag (timesAll k vo) p = (accPrev ag vo p).map (times k) := by
  unfold accPrev
  split_ifs
  · rw [← zeros_times k]; simp only [Except.map, zeros_times]
  · exact getE_timesAll k vo p

theorem accIter_times (k : ℚ) (ag : Aggregator) (res lvl : Int) (st : AccSt n) (it : Int) :
    accIter ag res lvl ⟨timesAll k st.vOrd, st.zero, timesAll k st.out⟩ it =
      (accIter ag res lvl st it).map (fun st => ⟨timesAll k st.vOrd, st.zero, timesAll k st.out⟩) := by
  unfold accIter
  simp only [keys_timesAll, accFillCur_times, map_bind', bind_map', accFillPrev_times, accPrev_times,
    getE_timesAll]
  refine bind_congr fun v1 => ?_
  refine bind_congr fun v2 => ?_
  refine bind_congr fun v3 => ?_
  refine bind_congr fun v4 => ?_
  rw [accOut_times, set_timesAll]; rfl

theorem accumulation_times (k : ℚ) (ag : Aggregator) (ms : Messages n) :
    ag.accumulation (timesAll k ms) = (ag.accumulation ms).map (timesAll k) := by
  unfold accumulation
  simp only [keys_timesAll, vOrd_timesAll, map_bind']
  refine bind_congr fun first => ?_
  refine bind_congr fun its => ?_
  have := foldlM_map_eq (accIter ag first.resolution first.level) (accIter ag first.resolution first.level)
    (fun st : AccSt n => ⟨timesAll k st.vOrd, st.zero, timesAll k st.out⟩)
    (fun s a => accIter_times k ag _ _ s a) its ⟨vOrd ms, false, []⟩
  have h0 : timesAll k ([] : Dict Step (Arr n)) = [] := rfl
  simp only [h0] at this
  rw [this, bind_map']; rfl

theorem avgField_times (k : ℚ) (vo : Dict Int (Arr n)) (h : Int) :
    avgField (timesAll k vo) h = (avgField vo h).map (times k) := by
  unfold avgField
  rw [keys_timesAll]
  split_ifs
  · exact getE_timesAll k vo h
  · simp only [getE_timesAll, map_bind']

/-- the sums of an interval in the other unit. -/
def sumTimes (k : ℚ) (p : (Fin n → Num) × Num) : (Fin n → Num) × Num := (fun i => p.1 i * .fin k, p.2)

theorem Num.add_mul' (a b c : Num) : (a + b) * c = a * c + b * c := by
  rw [Num.mul_comm', Num.mul_add', Num.mul_comm' c, Num.mul_comm' c]

theorem avgHour_times (k : ℚ) (vo : Dict Int (Arr n)) (s : (Fin n → Num) × Num) (h : Int) :
    avgHour (timesAll k vo) (sumTimes k s) h = (avgHour vo s h).map (sumTimes k) := by
  unfold avgHour
  simp only [avgField_times, map_bind', bind_map']
  refine bind_congr fun v => ?_
  simp only [Except.map, sumTimes, times, Num.add_mul']

theorem scale_times (k : ℚ) (v : Arr n) (w : Num) : (times k v).scale w = times k (v.scale w) := by
  have hm : ∀ i, (times k v).masked i = v.masked i := fun i => rfl
  unfold Arr.scale
  simp only [hm]
  simp only [times, Arr.mk.injEq, and_true]
  funext i
  by_cases h : v.masked i = true
  · rw [if_pos h, if_pos h]
  · rw [if_neg h, if_neg h, Num.mul_assoc', Num.mul_assoc', Num.mul_comm' (.fin k)]

theorem halfHour_times (k : ℚ) (vo : Dict Int (Arr n)) (a b : Int) (d1 d2 : Num)
    (s : (Fin n → Num) × Num) (h : Int) :
    halfHour (timesAll k vo) a b d1 d2 (sumTimes k s) h =
      (halfHour vo a b d1 d2 s h).map (sumTimes k) := by
  unfold halfHour
  rw [keys_timesAll]
  split_ifs
  all_goals try rfl
  all_goals
    simp only [getE_timesAll, map_bind', bind_map']
    refine bind_congr fun v => ?_
    rw [scale_times]
    simp only [Except.map, sumTimes, Num.add_mul']
    rfl

theorem avgSums_times (k : ℚ) (ag : Aggregator) (vo : Dict Int (Arr n)) (it : Int) :
    avgSums ag (timesAll k vo) it = (avgSums ag vo it).map (sumTimes k) := by
  have h0 : sumTimes k ((fun _ => 0, 0) : (Fin n → Num) × Num) = (fun _ => 0, 0) := by
    simp only [sumTimes]; rw [Num.zero_def, Num.fin_mul, zero_mul]
  unfold avgSums
  rw [keys_timesAll]
  dsimp only
  split_ifs
  · rw [map_bind']
    refine bind_congr fun hs => ?_
    split_ifs
    · have := foldlM_map_eq _ _ (sumTimes k) (fun s a => halfHour_times k vo it (it + ag.aggrStep + 1)
        (Num.ofInt ag.aggrStep / Num.ofInt ((hs.filter (· ∈ Dict.keys vo)).length - 1))
        (Num.ofInt ag.aggrStep / Num.ofInt ((hs.filter (· ∈ Dict.keys vo)).length - 1) / 2) s a)
        hs (fun _ => 0, 0)
      rw [h0] at this; exact this
    · simp only [Except.map, h0]
  · rw [map_bind']
    refine bind_congr fun hs => ?_
    have := foldlM_map_eq _ _ (sumTimes k) (fun s a => avgHour_times k vo s a) hs (fun _ => 0, 0)
    rw [h0] at this; exact this

theorem avgIter_times (k : ℚ) (ag : Aggregator) (vo : Dict Int (Arr n)) (res lvl : Int)
    (out : Dict Step (Arr n)) (it : Int) :
    avgIter ag (timesAll k vo) res lvl (timesAll k out) it =
      (avgIter ag vo res lvl out it).map (timesAll k) := by
  unfold avgIter
  simp only [avgSums_times, map_bind', bind_map']
  refine bind_congr fun p => ?_
  simp only [Except.map, ← set_timesAll]
  congr 2
  simp only [sumTimes, times, Arr.maskedWhere, Arr.mk.injEq, and_true]
  funext i
  rw [Num.mul_comm' (p.1 i), Num.mul_div', Num.mul_comm']

theorem average_times (k : ℚ) (ag : Aggregator) (ms : Messages n) :
    ag.average (timesAll k ms) = (ag.average ms).map (timesAll k) := by
  unfold average
  split_ifs
  · rfl
  · simp only [keys_timesAll, vOrd_timesAll, map_bind']
    refine bind_congr fun first => ?_
    refine bind_congr fun its => ?_
    exact foldlM_map_eq _ _ (timesAll k) (fun s a => avgIter_times k ag (vOrd ms) _ _ s a) its []

theorem instField_times (k : ℚ) (vo : Dict Int (Arr n)) (it : Int) :
    instField (timesAll k vo) it = (instField vo it).map (times k) := by
  unfold instField
  rw [keys_timesAll]
  split_ifs
  · simp only [getE_timesAll, map_bind', bind_map', intoZeros_times]; rfl
  · simp only [Except.map, zeros_times]
  · simp only [getE_timesAll, map_bind', bind_map', intoZeros_times]; rfl

theorem instIter_times (k : ℚ) (ag : Aggregator) (vo : Dict Int (Arr n)) (res lvl : Int)
    (out : Dict Step (Arr n)) (it : Int) :
    instIter ag (timesAll k vo) res lvl (timesAll k out) it =
      (instIter ag vo res lvl out it).map (timesAll k) := by
  unfold instIter
  simp only [instField_times, map_bind', bind_map']
  refine bind_congr fun p => ?_
  simp only [Except.map, ← set_timesAll]

theorem instantaneous_times (k : ℚ) (ag : Aggregator) (ms : Messages n) :
    ag.instantaneous (timesAll k ms) = (ag.instantaneous ms).map (timesAll k) := by
  unfold instantaneous
  split_ifs
  · rfl
  · simp only [keys_timesAll, vOrd_timesAll, map_bind']
    refine bind_congr fun first => ?_
    refine bind_congr fun its => ?_
    exact foldlM_map_eq _ _ (timesAll k) (fun s a => instIter_times k ag (vOrd ms) _ _ s a) its []

/-- C15, exact arithmetic form: aggregating fields given in another unit gives the aggregated fields in
that unit, for every aggregation type, settings and messages; also when the aggregation fails, with the
same error. -/
theorem C15_times (k : ℚ) (ag : Aggregator) (ms : Messages n) :
    ag.doManipulation (timesAll k ms) = (ag.doManipulation ms).map (timesAll k) := by
  unfold doManipulation
  split_ifs
  · exact accumulation_times k ag ms
  · exact average_times k ag ms
  · exact instantaneous_times k ag ms
  · rfl

theorem convert_times (ne : NumExpr) (t : Str) (cut : Bool) (mv k : ℚ) (a : Arr n)
    (hlead : OnlyLeading t) (hid : t ≠ "x".toList) (hf : ne t = some fun x => x * .fin k)
    (hmv : ∀ i, a.data i ≠ .fin mv) :
    Converter.convert ne ((Converter.init (some ("x=".toList ++ t)) cut).setMissingValue (.fin mv)) a =
      .ok (times k a) := by
  obtain ⟨r, hr, _, hv, hm⟩ := C17_conversion ne t _ cut mv a hlead hid hf
  rw [hr]
  congr 1
  cases r
  simp only [times, Arr.mk.injEq]
  exact ⟨funext fun i => hv i (hmv i), hm⟩

/-- Every map of `d` converted with the converter `c`, in order. -/
def Spec.convertAll {κ : Type} (ne : NumExpr) (c : Converter) (d : Dict κ (Arr n)) :
    Py (Dict κ (Arr n)) :=
  d.mapM fun p => (Converter.convert ne c p.2).map fun a => (p.1, a)

theorem mapM_ok {α β ε : Type} (f : α → Except ε β) (g : α → β) (l : List α)
    (h : ∀ a ∈ l, f a = .ok (g a)) : l.mapM f = .ok (l.map g) := by
  induction l with
  | nil => rfl
  | cons a l ih =>
    rw [List.mapM_cons, h a (by simp), ih (fun b hb => h b (by simp [hb]))]; rfl

/-- C15: with a configured conversion `x=x*k` and no missing value in the messages nor in the aggregated
maps, converting and then aggregating gives the same as aggregating and then converting, for all three
aggregation types. -/
theorem C15_conversion_commutes (ne : NumExpr) (t : Str) (cut : Bool) (mv k : ℚ) (ag : Aggregator)
    (ms out : Dict Step (Arr n))
    (hlead : OnlyLeading t) (hid : t ≠ "x".toList) (hf : ne t = some fun x => x * .fin k)
    (hmv : ∀ p ∈ ms, ∀ i, p.2.data i ≠ .fin mv)
    (hrun : ag.doManipulation ms = .ok out) (hmv' : ∀ p ∈ out, ∀ i, p.2.data i ≠ .fin mv) :
    (convertAll ne ((Converter.init (some ("x=".toList ++ t)) cut).setMissingValue (.fin mv)) ms >>=
        ag.doManipulation) =
      convertAll ne ((Converter.init (some ("x=".toList ++ t)) cut).setMissingValue (.fin mv)) out := by
  unfold convertAll
  rw [mapM_ok _ (fun p => (p.1, times k p.2)) ms (fun p hp => by
    rw [convert_times ne t cut mv k p.2 hlead hid hf (hmv p hp)]; rfl),
    mapM_ok _ (fun p => (p.1, times k p.2)) out (fun p hp => by
    rw [convert_times ne t cut mv k p.2 hlead hid hf (hmv' p hp)]; rfl)]
  have := C15_times k ag ms
  rw [hrun] at this
  exact this

/-- Non-vacuity: accumulated metres to millimetres. -/
example : OnlyLeading "x*1000".toList ∧ (∀ p ∈ Demo.ms4, ∀ i, p.2.data i ≠ .fin 9999) ∧
    ∃ out, (Demo.acc 0 18 6).doManipulation Demo.ms4 = .ok out ∧ ∀ p ∈ out, ∀ i, p.2.data i ≠ .fin 9999 := by
  refine ⟨?_, by decide +kernel, ?_⟩
  · intro a b h
    have h2 : '=' ∈ "x*1000".toList := by rw [h]; simp
    revert h2; decide
  · cases h : (Demo.acc 0 18 6).doManipulation Demo.ms4 with
    | error e =>
      have : ((Demo.acc 0 18 6).doManipulation Demo.ms4).isOk = true := by decide +kernel
      rw [h] at this; cases this
    | ok out =>
      refine ⟨out, rfl, ?_⟩
      have : ∀ o, ((Demo.acc 0 18 6).doManipulation Demo.ms4).toOption = some o →
          ∀ p ∈ o, ∀ i, p.2.data i ≠ .fin 9999 := by
        have : (((Demo.acc 0 18 6).doManipulation Demo.ms4).toOption.all
          fun o => decide (∀ p ∈ o, ∀ i, p.2.data i ≠ .fin 9999)) = true := by decide +kernel
        intro o ho
        rw [ho] at this
        simpa using this
      exact this out (by rw [h]; rfl)

end PyG2P
