import Verif.Lemmas.Aggregator

/-! # What a successful accumulation computes -/

namespace PyG2P
open Spec
namespace Aggregator
variable {n : Nat}

theorem keys_append {κ α : Type} (d e : Dict κ α) :
    Dict.keys (d ++ e) = Dict.keys d ++ Dict.keys e := by
  unfold Dict.keys; rw [List.map_append]

theorem get?_app_left {d e : Dict Int (Arr n)} {k : Int} {a : Arr n} (h : Dict.get? d k = some a) :
    Dict.get? (d ++ e) k = some a := by
  rw [Dict.get?_append, h]; rfl

/-- Neighbours found in the key list are the neighbouring available steps. -/
theorem isPrev_isNext_of_bracket (ms : Messages n) {x o nx : Int}
    (hx : ¬ Avail ms x)
    (ho : o ∈ Dict.keys (vOrd ms)) (hn : nx ∈ Dict.keys (vOrd ms)) (hox : o < x) (hxn : x < nx)
    (h1 : ∀ u ∈ Dict.keys (vOrd ms), u < x → u ≤ o) (h2 : ∀ u ∈ Dict.keys (vOrd ms), x < u → nx ≤ u) :
    IsPrev ms x o ∧ IsNext ms x nx := by
  refine ⟨⟨(mem_keys_vOrd ms o).1 ho, le_of_lt hox, ?_⟩,
    ⟨(mem_keys_vOrd ms nx).1 hn, le_of_lt hxn, ?_⟩⟩
  · intro w hw hwx
    have : w ≠ x := fun h => hx (h ▸ hw)
    exact h1 w ((mem_keys_vOrd ms w).2 hw) (by omega)
  · intro w hw hwx
    have : w ≠ x := fun h => hx (h ▸ hw)
    exact h2 w ((mem_keys_vOrd ms w).2 hw) (by omega)

/-- The field `a` is the linear interpolation, with weight taken at time `w`, between the
available neighbours of `x`. -/
def LinAt (ms : Messages n) (x w : Int) (a : Arr n) : Prop :=
  ∃ o nx vO vN, IsPrev ms x o ∧ IsNext ms x nx ∧ o < x ∧ x < nx ∧
    fieldAt ms o = some vO ∧ fieldAt ms nx = some vN ∧ a = linInterp vO vN w o nx

/-- The two dictionary look-ups after a successful search. -/
theorem search_lin (ms : Messages n) (A B : Dict Int (Arr n)) (x : Int)
    (hA : ∀ k ∈ Dict.keys A, k < x) (hx : ¬ Avail ms x) (hlow : ∃ u, Avail ms u ∧ u < x)
    {nx o : Int} {vN vO : Arr n}
    (hn : pyGet (Dict.keys (vOrd ms ++ A)) (bisectLeft (Dict.keys (vOrd ms ++ A)) x : Int) = .ok nx)
    (ho : pyGet (Dict.keys (vOrd ms ++ A))
      ((bisectLeft (Dict.keys (vOrd ms ++ A)) x : Int) - 1) = .ok o)
    (hvN : Dict.getE (vOrd ms ++ B) nx = .ok vN) (hvO : Dict.getE (vOrd ms ++ B) o = .ok vO) :
    IsPrev ms x o ∧ IsNext ms x nx ∧ o < x ∧ x < nx ∧
      fieldAt ms o = some vO ∧ fieldAt ms nx = some vN := by
  rw [keys_append] at hn ho
  obtain ⟨u, hu, hux⟩ := hlow
  obtain ⟨r, hr, hnx, hxnx, o', ho', hox, hpg, h1, h2⟩ :=
    bracket_of_search (Dict.keys (vOrd ms)) (Dict.keys A) x (keys_vOrd_sorted ms) hA
      (fun h => hx ((mem_keys_vOrd ms x).1 h)) ⟨u, (mem_keys_vOrd ms u).2 hu, hux⟩ nx hn
  rw [hr] at ho
  have hcast : (((r + 1 : Nat) : Int) - 1) = ((r : Nat) : Int) := by omega
  rw [hcast, hpg] at ho
  injection ho with ho
  subst ho
  have hom : o' ∈ Dict.keys (vOrd ms) := List.mem_of_getElem? ho'
  have hnm : nx ∈ Dict.keys (vOrd ms) := List.mem_of_getElem? hnx
  obtain ⟨hp, hnxt⟩ := isPrev_isNext_of_bracket ms hx hom hnm hox hxnx h1 h2
  refine ⟨hp, hnxt, hox, hxnx, ?_, ?_⟩
  · obtain ⟨a, ha⟩ := Dict.exists_of_mem_keys hom
    rw [Dict.getE_eq_ok, get?_app_left ha] at hvO
    rw [← get?_vOrd, ha, hvO]
  · obtain ⟨a, ha⟩ := Dict.exists_of_mem_keys hnm
    rw [Dict.getE_eq_ok, get?_app_left ha] at hvN
    rw [← get?_vOrd, ha, hvN]

theorem accFillCur_ok (ms : Messages n) (A : Dict Int (Arr n)) (it : Int)
    (hA : ∀ k ∈ Dict.keys A, k < it) {vo' : Dict Int (Arr n)}
    (h : accFillCur (Dict.keys (vOrd ms ++ A)) (vOrd ms ++ A) it = .ok vo') :
    ∃ B, vo' = vOrd ms ++ (A ++ B) ∧ (∀ k ∈ Dict.keys B, k = it) ∧
      (∃ a, Dict.get? vo' it = some a ∧
        (¬ Avail ms it → (∃ u, Avail ms u ∧ u < it) → LinAt ms it it a)) := by
  unfold accFillCur at h
  by_cases hm : it ∈ Dict.keys (vOrd ms ++ A)
  · rw [if_pos hm] at h
    injection h with h
    subst h
    refine ⟨[], by simp, by simp, ?_⟩
    obtain ⟨a, ha⟩ := Dict.exists_of_mem_keys hm
    refine ⟨a, ha, ?_⟩
    intro hna _
    exfalso
    rw [keys_append, List.mem_append, mem_keys_vOrd] at hm
    rcases hm with hm | hm
    · exact hna hm
    · have := hA it hm; omega
  · rw [if_neg hm] at h
    simp only [bind_ok_iff] at h
    obtain ⟨nx, hn, vN, hvN, o, ho, vO, hvO, h⟩ := h
    injection h with h
    rw [Dict.set_of_not_mem hm] at h
    refine ⟨[(it, linInterp vO vN it o nx)], by rw [← h]; simp, by simp, linInterp vO vN it o nx, ?_, ?_⟩
    · rw [← h, Dict.get?_append, Dict.get?_eq_none_iff.2 hm]; simp [Dict.get?]
    · intro hna hlow
      rw [bisectRight_eq_left hm] at ho
      simp only [if_true] at ho
      obtain ⟨h1, h2, h3, h4, h5, h6⟩ := search_lin ms A A it hA hna hlow hn ho hvN hvO
      exact ⟨o, nx, vO, vN, h1, h2, h3, h4, h5, h6, rfl⟩

theorem accFillPrev_ok (ms : Messages n) (A B : Dict Int (Arr n)) (it prev : Int) (zero : Bool)
    (hB : ∀ k ∈ Dict.keys B, k = it) (hpi : prev < it)
    {vo2 : Dict Int (Arr n)} {z : Bool}
    (h : accFillPrev (Dict.keys (vOrd ms ++ A)) (vOrd ms ++ (A ++ B)) zero it prev = .ok (vo2, z)) :
    ∃ C, vo2 = vOrd ms ++ (A ++ B ++ C) ∧ (∀ k ∈ Dict.keys C, k = prev) ∧
      (A = [] → zero = false → 0 < prev → ¬ Avail ms prev → (∃ u, Avail ms u ∧ u < prev) →
        ∃ a, Dict.get? vo2 prev = some a ∧ LinAt ms prev it a) ∧
      (A = [] → zero = false → prev = 0 → ¬ Avail ms 0 → Dict.get? vo2 0 = some Arr.zeros) := by
  unfold accFillPrev at h
  by_cases hc : 0 ≤ prev ∧ prev ∉ Dict.keys (vOrd ms ++ A) ∧ zero = false
  · rw [if_pos hc] at h
    obtain ⟨hp0, hpk, hz⟩ := hc
    have hnm : prev ∉ Dict.keys (vOrd ms ++ (A ++ B)) := by
      rw [← List.append_assoc, keys_append, List.mem_append, not_or]
      refine ⟨hpk, fun hm => ?_⟩
      have := hB prev hm; omega
    simp only [bind_ok_iff] at h
    obtain ⟨nx, hn, h⟩ := h
    by_cases hp : prev = 0
    · rw [if_pos hp] at h
      injection h with h
      obtain ⟨h, -⟩ := Prod.mk.inj h
      subst hp
      rw [Dict.set_of_not_mem hnm] at h
      refine ⟨[(0, Arr.zeros)], by rw [← h]; simp, by simp, fun _ _ h0 => by omega, fun _ _ _ _ => ?_⟩
      rw [← h, Dict.get?_append, Dict.get?_eq_none_iff.2 hnm]; simp [Dict.get?]
    · rw [if_neg hp] at h
      simp only [bind_ok_iff] at h
      obtain ⟨vN, hvN, o, ho, vO, hvO, h⟩ := h
      injection h with h
      obtain ⟨h, -⟩ := Prod.mk.inj h
      rw [Dict.set_of_not_mem hnm] at h
      refine ⟨[(prev, linInterp vO vN it o nx)], by rw [← h]; simp, by simp, ?_, fun _ _ h0 => absurd h0 hp⟩
      intro hA0 _ _ hna hlow
      subst hA0
      refine ⟨linInterp vO vN it o nx, ?_, ?_⟩
      · rw [← h, Dict.get?_append, Dict.get?_eq_none_iff.2 hnm]; simp [Dict.get?]
      · rw [bisectRight_eq_left hpk] at ho
        simp only [if_true] at ho
        obtain ⟨h1, h2, h3, h4, h5, h6⟩ :=
          search_lin ms [] B prev (by simp) hna hlow hn ho (by simpa using hvN) (by simpa using hvO)
        exact ⟨o, nx, vO, vN, h1, h2, h3, h4, h5, h6, rfl⟩
  · rw [if_neg hc] at h
    injection h with h
    obtain ⟨h, -⟩ := Prod.mk.inj h
    refine ⟨[], by simpa using h.symm, by simp, ?_, ?_⟩
    · intro hA0 hz hp hna _
      exfalso; subst hA0
      apply hc
      refine ⟨le_of_lt hp, ?_, hz⟩
      rw [List.append_nil, mem_keys_vOrd]; exact hna
    · intro hA0 hz hp hna
      exfalso; subst hA0
      apply hc
      refine ⟨hp.ge, ?_, hz⟩
      rw [List.append_nil, mem_keys_vOrd, hp]; exact hna

/-- The field read from the ordered dictionary. -/
def look (vo : Dict Int (Arr n)) (t : Int) : Arr n := (Dict.get? vo t).getD Arr.zeros

/-- The field subtracted in the interval ending at `t`. -/
def prevField (ag : Aggregator) (vo : Dict Int (Arr n)) (t : Int) : Arr n :=
  if t - ag.aggrStep = 0 ∧ ag.forceZero = true then Arr.zeros else look vo (t - ag.aggrStep)

def accKey (ag : Aggregator) (res lvl t : Int) : Step := ⟨t - ag.aggrStep, t, res, ag.aggrStep, lvl⟩

structure AccInv (ag : Aggregator) (ms : Messages n) (res lvl : Int) (pre : List Int) (s : AccSt n) :
    Prop where
  ext : ∃ A, s.vOrd = vOrd ms ++ A ∧ ∀ k ∈ Dict.keys A, ∃ t ∈ pre, k ≤ t
  zero0 : pre = [] → s.zero = false
  out : s.out = pre.map fun t =>
    (accKey ag res lvl t, accOut ag (look s.vOrd t) (prevField ag s.vOrd t))
  cur : ∀ t ∈ pre, ∃ a, Dict.get? s.vOrd t = some a ∧
    (¬ Avail ms t → (∃ u, Avail ms u ∧ u < t) → LinAt ms t t a)
  prev : ∀ t ∈ pre, ¬ (t - ag.aggrStep = 0 ∧ ag.forceZero = true) →
    ∃ a, Dict.get? s.vOrd (t - ag.aggrStep) = some a
  first : ∀ t, pre.head? = some t →
    (0 < t - ag.aggrStep → ¬ Avail ms (t - ag.aggrStep) → (∃ u, Avail ms u ∧ u < t - ag.aggrStep) →
      ∃ a, Dict.get? s.vOrd (t - ag.aggrStep) = some a ∧ LinAt ms (t - ag.aggrStep) t a) ∧
    (t - ag.aggrStep = 0 → ¬ Avail ms 0 → Dict.get? s.vOrd 0 = some Arr.zeros)

theorem look_app {vo e : Dict Int (Arr n)} {t : Int} {a : Arr n} (h : Dict.get? vo t = some a) :
    look (vo ++ e) t = look vo t := by
  unfold look; rw [get?_app_left h, h]

theorem accIter_inv (ag : Aggregator) (ms : Messages n) (res lvl : Int) (hs : 0 < ag.aggrStep)
    (pre : List Int) (it : Int) (hlt : ∀ t ∈ pre, t < it) (s s' : AccSt n)
    (hI : AccInv ag ms res lvl pre s) (h : accIter ag res lvl s it = .ok s') :
    AccInv ag ms res lvl (pre ++ [it]) s' := by
  obtain ⟨A, hvo, hAk⟩ := hI.ext
  unfold accIter at h
  simp only [bind_ok_iff] at h
  obtain ⟨vo1, h1, ⟨vo2, z⟩, h2, vPrev, h3, vCur, h4, h⟩ := h
  rw [hvo] at h1 h2
  have hAlt : ∀ k ∈ Dict.keys A, k < it := fun k hk => by
    obtain ⟨t, ht, hkt⟩ := hAk k hk; have := hlt t ht; omega
  obtain ⟨B, hvo1, hB, a, ha, hlin⟩ := accFillCur_ok ms A it hAlt h1
  rw [hvo1] at h2
  obtain ⟨C, hvo2, hC, hfl, hfz⟩ := accFillPrev_ok ms A B it (it - ag.aggrStep) s.zero hB (by omega) h2
  injection h with h
  have hs'v : s'.vOrd = vo2 := by rw [← h]
  have hext : vo2 = s.vOrd ++ (B ++ C) := by rw [hvo2, hvo]; simp
  have hext1 : vo2 = vo1 ++ C := by rw [hvo2, hvo1]; simp
  have hcur : Dict.get? vo2 it = some a := by rw [hext1]; exact get?_app_left ha
  have hkeep : ∀ {t : Int} {b : Arr n}, Dict.get? s.vOrd t = some b → Dict.get? vo2 t = some b := by
    intro t b hb; rw [hext]; exact get?_app_left hb
  have hprev : ¬ (it - ag.aggrStep = 0 ∧ ag.forceZero = true) →
      Dict.get? vo2 (it - ag.aggrStep) = some vPrev := by
    intro hc; unfold accPrev at h3; rw [if_neg hc] at h3; exact Dict.getE_eq_ok.1 h3
  have hpf : prevField ag vo2 it = vPrev := by
    unfold prevField
    by_cases hc : it - ag.aggrStep = 0 ∧ ag.forceZero = true
    · unfold accPrev at h3; rw [if_pos hc] at h3 ⊢; injection h3
    · rw [if_neg hc]; unfold look; rw [hprev hc]; rfl
  have hvc : look vo2 it = vCur := by
    unfold look; rw [Dict.getE_eq_ok.1 h4]; rfl
  constructor
  · refine ⟨A ++ B ++ C, by rw [hs'v, hvo2], ?_⟩
    intro k hk
    rw [keys_append, keys_append, List.mem_append, List.mem_append] at hk
    rcases hk with (hk | hk) | hk
    · obtain ⟨t, ht, hkt⟩ := hAk k hk
      exact ⟨t, by simp [ht], hkt⟩
    · exact ⟨it, by simp, by rw [hB k hk]⟩
    · exact ⟨it, by simp, by rw [hC k hk]; omega⟩
  · intro hc; simp at hc
  · have hkeyfresh : accKey ag res lvl it ∉ Dict.keys s.out := by
      rw [hI.out]
      unfold Dict.keys
      rw [List.map_map, List.mem_map]
      rintro ⟨t, ht, heq⟩
      have : t = it := by
        have := congrArg Step.endStep heq
        simpa [accKey] using this
      have := hlt t ht; omega
    have hout : s'.out = s.out ++ [(accKey ag res lvl it, accOut ag vCur vPrev)] := by
      rw [← h]; exact Dict.set_of_not_mem hkeyfresh _
    rw [hout, hI.out, List.map_append, hs'v]
    congr 1
    · apply List.map_congr_left
      intro t ht
      obtain ⟨b, hb, -⟩ := hI.cur t ht
      rw [hext, look_app hb]
      congr 2
      unfold prevField
      by_cases hc : t - ag.aggrStep = 0 ∧ ag.forceZero = true
      · rw [if_pos hc, if_pos hc]
      · rw [if_neg hc, if_neg hc]
        obtain ⟨b', hb'⟩ := hI.prev t ht hc
        rw [look_app hb']
    · simp [hpf, hvc]
  · intro t ht
    rw [hs'v]
    rw [List.mem_append] at ht
    rcases ht with ht | ht
    · obtain ⟨b, hb, hl⟩ := hI.cur t ht
      exact ⟨b, hkeep hb, hl⟩
    · simp at ht; subst ht
      exact ⟨a, hcur, hlin⟩
  · intro t ht hc
    rw [hs'v]
    rw [List.mem_append] at ht
    rcases ht with ht | ht
    · obtain ⟨b, hb⟩ := hI.prev t ht hc
      exact ⟨b, hkeep hb⟩
    · simp at ht; subst ht
      exact ⟨vPrev, hprev hc⟩
  · intro t ht
    rw [hs'v]
    cases pre with
    | nil =>
      simp at ht; subst ht
      have hA0 : A = [] := by
        cases A with
        | nil => rfl
        | cons p A =>
          obtain ⟨t, ht, -⟩ := hAk p.1 (by simp)
          simp at ht
      have hz := hI.zero0 rfl
      exact ⟨fun h1 h2 h3 => hfl hA0 hz h1 h2 h3, fun h1 h2 => hfz hA0 hz h1 h2⟩
    | cons t0 pre =>
      simp at ht; subst ht
      have := hI.first t0 rfl
      refine ⟨fun h1 h2 h3 => ?_, fun h1 h2 => hkeep (this.2 h1 h2)⟩
      obtain ⟨b, hb, hl⟩ := this.1 h1 h2 h3
      exact ⟨b, hkeep hb, hl⟩

/-- Summary of a successful accumulation. `V t` is the field the code uses at step `t`. -/
theorem accumulation_ok (ag : Aggregator) (ms : Messages n) (hs : 0 < ag.aggrStep)
    (out : Dict Step (Arr n)) (h : ag.accumulation ms = .ok out) :
    ∃ (first : Step × Arr n) (V : Int → Arr n), ms.head? = some first ∧
      (∀ t a, fieldAt ms t = some a → V t = a) ∧
      (out = (rangeList ag.accStart (ag.end_ + 1) ag.aggrStep).map fun t =>
        (accKey ag first.1.resolution first.1.level t,
          accOut ag (V t)
            (if t - ag.aggrStep = 0 ∧ ag.forceZero = true then Arr.zeros else V (t - ag.aggrStep)))) ∧
      (∀ t ∈ rangeList ag.accStart (ag.end_ + 1) ag.aggrStep, ¬ Avail ms t →
        (∃ u, Avail ms u ∧ u < t) → LinAt ms t t (V t)) ∧
      (∀ t, (rangeList ag.accStart (ag.end_ + 1) ag.aggrStep).head? = some t →
        (0 < t - ag.aggrStep → ¬ Avail ms (t - ag.aggrStep) →
          (∃ u, Avail ms u ∧ u < t - ag.aggrStep) → LinAt ms (t - ag.aggrStep) t (V (t - ag.aggrStep))) ∧
        (t - ag.aggrStep = 0 → ¬ Avail ms 0 → V 0 = Arr.zeros)) := by
  unfold accumulation at h
  simp only [bind_ok_iff] at h
  obtain ⟨f, hf, its, hr, st, hfold, h⟩ := h
  rw [pyRange_pos hs] at hr
  injection hr with hr
  subst hr
  injection h with h
  cases ms with
  | nil => rw [Dict.keys_nil, pyGet_zero_nil] at hf; cases hf
  | cons p ms' =>
    rw [Dict.keys_cons, pyGet_zero_cons] at hf
    injection hf with hf
    subst hf
    have hinv := foldlM_inv (accIter ag p.1.resolution p.1.level)
      (AccInv ag (p :: ms') p.1.resolution p.1.level) _ _ st
      ⟨⟨[], by simp, by simp⟩, fun _ => rfl, rfl, by simp, by simp, by simp⟩
      (fun pre x post s s' hl hP hstep => by
        refine accIter_inv ag _ _ _ hs pre x ?_ s s' hP hstep
        intro t ht
        have := rangeList_pairwise (a := ag.accStart) (b := ag.end_ + 1) hs
        rw [hl] at this
        exact (List.pairwise_append.1 this).2.2 t ht x (by simp))
      hfold
    refine ⟨p, look st.vOrd, rfl, ?_, ?_, ?_, ?_⟩
    · intro t a ha
      obtain ⟨A, hvo, -⟩ := hinv.ext
      rw [← get?_vOrd] at ha
      unfold look
      rw [hvo, get?_app_left ha]; rfl
    · rw [← h, hinv.out]; rfl
    · intro t ht hna hlow
      obtain ⟨a, ha, hl⟩ := hinv.cur t ht
      have : look st.vOrd t = a := by unfold look; rw [ha]; rfl
      rw [this]; exact hl hna hlow
    · intro t ht
      have := hinv.first t ht
      refine ⟨fun h1 h2 h3 => ?_, fun h1 h2 => ?_⟩
      · obtain ⟨a, ha, hl⟩ := this.1 h1 h2 h3
        have h4 : look st.vOrd (t - ag.aggrStep) = a := by unfold look; rw [ha]; rfl
        rw [h4]; exact hl
      · unfold look; rw [this.2 h1 h2]; rfl

/-- With every needed step available (step 0 may be replaced by zeros) the run succeeds. -/
theorem accumulation_total (ag : Aggregator) (ms : Messages n) (hs : 0 < ag.aggrStep)
    (hne : ms ≠ [])
    (hcur : ∀ t ∈ rangeList ag.accStart (ag.end_ + 1) ag.aggrStep, Avail ms t)
    (hprev : ∀ t ∈ rangeList ag.accStart (ag.end_ + 1) ag.aggrStep,
      t - ag.aggrStep = 0 ∨ Avail ms (t - ag.aggrStep)) :
    ∃ out, ag.accumulation ms = .ok out := by
  obtain ⟨p, ms', rfl⟩ := List.exists_cons_of_ne_nil hne
  have hfold := foldlM_total (accIter ag p.1.resolution p.1.level)
    (fun _ s => (s.vOrd = vOrd (p :: ms') ∧ s.zero = false) ∨
      (s.vOrd = vOrd (p :: ms') ++ [(0, Arr.zeros)]))
    (rangeList ag.accStart (ag.end_ + 1) ag.aggrStep) ⟨vOrd (p :: ms'), false, []⟩
    (Or.inl ⟨rfl, rfl⟩) (by
      intro pre it post s hl hI
      have hit : it ∈ rangeList ag.accStart (ag.end_ + 1) ag.aggrStep := by rw [hl]; simp
      have hc := hcur it hit
      obtain ⟨vc, hvc⟩ := Option.isSome_iff_exists.1 ((avail_iff _ _).1 hc)
      rw [← get?_vOrd] at hvc
      have hsub : ∃ A, s.vOrd = vOrd (p :: ms') ++ A := by
        rcases hI with ⟨h, -⟩ | h
        · exact ⟨[], by simp [h]⟩
        · exact ⟨_, h⟩
      obtain ⟨A, hA⟩ := hsub
      have hgc : Dict.get? s.vOrd it = some vc := by rw [hA]; exact get?_app_left hvc
      have hfc : accFillCur (Dict.keys s.vOrd) s.vOrd it = .ok s.vOrd := by
        unfold accFillCur; rw [if_pos (Dict.mem_keys_of_get? hgc)]
      have hfp : ∃ vo2 z, accFillPrev (Dict.keys s.vOrd) s.vOrd s.zero it (it - ag.aggrStep) =
          .ok (vo2, z) ∧ ((vo2 = vOrd (p :: ms') ∧ z = false) ∨
            (vo2 = vOrd (p :: ms') ++ [(0, Arr.zeros)])) ∧
          (∃ b, Dict.get? vo2 (it - ag.aggrStep) = some b) ∧ Dict.get? vo2 it = some vc := by
        by_cases hin : it - ag.aggrStep ∈ Dict.keys s.vOrd
        · refine ⟨s.vOrd, s.zero, ?_, hI, Dict.exists_of_mem_keys hin, hgc⟩
          unfold accFillPrev
          rw [if_neg (by tauto)]
        · rcases hprev it hit with h0 | h0
          · rcases hI with ⟨hv, hz⟩ | hv
            · refine ⟨vOrd (p :: ms') ++ [(0, Arr.zeros)], true, ?_, Or.inr rfl, ?_, get?_app_left hvc⟩
              · unfold accFillPrev
                rw [if_pos ⟨by omega, hin, hz⟩]
                have hsp := bisectLeft_spec
                  ((keys_vOrd_sorted (p :: ms')).imp (fun h => le_of_lt h)) (it - ag.aggrStep)
                have hmem : it ∈ Dict.keys (vOrd (p :: ms')) := Dict.mem_keys_of_get? hvc
                obtain ⟨j, hj, hji⟩ := List.getElem_of_mem hmem
                have hlt : bisectLeft (Dict.keys (vOrd (p :: ms'))) (it - ag.aggrStep)
                    < (Dict.keys (vOrd (p :: ms'))).length := by
                  by_contra hge
                  have := hsp.2.1 j hj (by omega)
                  omega
                rw [hv]
                dsimp only
                rw [pyGet_natCast _ _ _ (List.getElem?_eq_getElem hlt)]
                rw [ok_bind, if_pos h0, Dict.set_of_not_mem]
                rw [hv] at hin; rwa [← h0]
              · rw [h0, Dict.get?_append]
                rw [hv, h0] at hin
                rw [Dict.get?_eq_none_iff.2 hin]
                exact ⟨Arr.zeros, by simp [Dict.get?]⟩
            · exfalso; apply hin; rw [hv, keys_append, h0]; simp
          · exfalso; apply hin
            rw [hA, keys_append]
            exact List.mem_append_left _ ((mem_keys_vOrd _ _).2 h0)
      obtain ⟨vo2, z, hf2, hI2, ⟨b, hb⟩, hgc2⟩ := hfp
      have hpv : ∃ b', accPrev ag vo2 (it - ag.aggrStep) = .ok b' := by
        unfold accPrev
        split
        · exact ⟨_, rfl⟩
        · exact ⟨b, Dict.getE_of_get? hb⟩
      obtain ⟨b', hb'⟩ := hpv
      refine ⟨⟨vo2, z, Dict.set s.out ⟨it - ag.aggrStep, it, p.1.resolution, ag.aggrStep, p.1.level⟩
        (accOut ag vc b')⟩, ?_, ?_⟩
      · unfold accIter
        simp only [hfc, ok_bind, hf2, hb', Dict.getE_of_get? hgc2]
      · exact hI2)
  obtain ⟨st, hst, -⟩ := hfold
  refine ⟨st.out, ?_⟩
  unfold accumulation
  rw [Dict.keys_cons, pyGet_zero_cons, ok_bind, pyRange_pos hs, ok_bind, hst, ok_bind]

end Aggregator
end PyG2P
