import Verif.Props.PipelineRun

/-! # C135, C136 — runs that change their grid, from the messages to the files -/

namespace PyG2P
open Spec TableApply Converter Aggregator
variable {n m k : Nat}

namespace Spec

/-- `D` is the accumulated field of the `a` hours before `t`: `(converted value at t − converted value at t − a) ·
unitTime / a`, masked where the field at `t − a` is. At step 0 the field is zero if it is forced or missing. -/
def AccumulatedField (mv : ℚ) (f : Num → Num) (ms : Messages n) (forceZero : Bool) (unitTime a t : Int) (D : Arr n) :
    Prop :=
  ∃ vc vp : Arr n, fieldAt ms t = some vc ∧
    (if t = a ∧ (forceZero = true ∨ ¬ Avail ms 0) then ∀ i, vp.data i = 0 ∧ vp.masked i = false
     else ∃ w, fieldAt ms (t - a) = some w ∧ vp = convertedField mv f w) ∧
    ∀ i, D.data i = ((convertedField mv f vc).data i - vp.data i) * Num.ofInt unitTime / Num.ofInt a ∧
      D.masked i = vp.masked i

/-- `D` is the mean over the hours `t − a + 1, ..., t` of the converted field valid at the hour, without a mask. -/
def MeanField (mv : ℚ) (f : Num → Num) (ms : Messages n) (a t : Int) (D : Arr n) : Prop :=
  ∃ F : Int → Arr n, (∀ h, t - a < h → h ≤ t → ValidAt ms h (F h)) ∧
    ∀ i, D.data i = ((List.range a.toNat).map fun (x : Nat) =>
        (convertedField mv f (F (t - a + 1 + (x : Int)))).data i).sum / Num.ofInt a ∧
      D.masked i = false

/-- What a file shows: cell by cell, what table `tb` and correction `h` make of `D`, with negative values cut off
before if asked; the clone's missing value outside the clone and for NaN. -/
def fileCells (r : RunIn n' m' k) (tb : Table k) (h : Option (Height k)) (D : Arr n) : Fin k → Num := fun c =>
  shown r.mask r.mvClone (finalCell h (cellOf tb r.mvOut (cutField (cuts r) D) c) c) c

end Spec

/-! ## one aggregation -/

theorem acc_maps (ag : Aggregator) (mv : ℚ) (f : Num → Num) (ms : Messages n) (hpos : 0 < ag.aggrStep) (hne : ms ≠ [])
    (hcur : ∀ t, InRange (firstEnd ag.start ag.aggrStep) ag.end_ ag.aggrStep t →
      Avail ms t ∧ (t - ag.aggrStep = 0 ∨ Avail ms (t - ag.aggrStep))) :
    ∃ (key : Int → Step) (W : Int → Arr n), (∀ t, (key t).startStep = t - ag.aggrStep ∧ (key t).endStep = t) ∧
      ag.accumulation (convertedMsgs mv f ms) =
        .ok ((rangeList (firstEnd ag.start ag.aggrStep) (ag.end_ + 1) ag.aggrStep).map fun t => (key t, W t)) ∧
      ∀ t, InRange (firstEnd ag.start ag.aggrStep) ag.end_ ag.aggrStep t →
        AccumulatedField mv f ms ag.forceZero ag.unitTime ag.aggrStep t (W t) := by
  set cs := convertedMsgs mv f ms with hms
  have hne' : cs ≠ [] := by
    intro h
    rw [hms] at h
    exact hne (List.map_eq_nil_iff.1 h)
  have hcur' : ∀ t ∈ rangeList ag.accStart (ag.end_ + 1) ag.aggrStep,
      Avail cs t ∧ (t - ag.aggrStep = 0 ∨ Avail cs (t - ag.aggrStep)) := by
    intro t ht
    obtain ⟨h1, h2⟩ := hcur t ((mem_range_iff (ag := ag) hpos).1 ht)
    exact ⟨(avail_converted _ _ _ _).2 h1, h2.imp id (avail_converted _ _ _ _).2⟩
  obtain ⟨out, hout⟩ := accumulation_total ag cs hpos hne' (fun t ht => (hcur' t ht).1) (fun t ht => (hcur' t ht).2)
  obtain ⟨first, V, -, hV, ho, -, hz⟩ := accumulation_ok ag cs hpos out hout
  refine ⟨fun t => accKey ag first.1.resolution first.1.level t, _, fun t => ⟨rfl, rfl⟩,
    hout.trans (congrArg _ ho), ?_⟩
  intro t hr
  obtain ⟨hav, hpv⟩ := hcur t hr
  obtain ⟨vc, hvc⟩ := Option.isSome_iff_exists.1 ((avail_iff _ _).1 hav)
  have hVt : V t = convertedField mv f vc := by
    apply hV t
    rw [hms, fieldAt_converted, hvc]
    rfl
  refine ⟨vc, _, hvc, ?_, fun i => ⟨?_, accOut_masked ag _ _ i⟩⟩
  · by_cases h0 : t = ag.aggrStep ∧ (ag.forceZero = true ∨ ¬ Avail ms 0)
    · rw [if_pos h0]
      have ht0 : t - ag.aggrStep = 0 := by omega
      by_cases hfz : ag.forceZero = true
      · rw [if_pos ⟨ht0, hfz⟩]
        exact fun i => ⟨rfl, rfl⟩
      · rw [if_neg (fun h => hfz h.2)]
        have hno : ¬ Avail cs 0 := by
          rw [hms, avail_converted]
          rcases h0.2 with h | h
          · exact absurd h hfz
          · exact h
        have hhd := zero_first (first := ag.accStart) (end_ := ag.end_) hpos hno
          (fun u hu => hcur' u ((mem_range_iff hpos).2 hu)) (by
            have h2 : InRange ag.accStart ag.end_ ag.aggrStep t := hr
            rw [h0.1] at h2
            exact h2)
        rw [ht0, (hz _ hhd).2 (by omega) hno]
        exact fun i => ⟨rfl, rfl⟩
    · rw [if_neg h0]
      have hnz : ¬ (t - ag.aggrStep = 0 ∧ ag.forceZero = true) := by
        rintro ⟨h1, h2⟩
        exact h0 ⟨by omega, Or.inl h2⟩
      rw [if_neg hnz]
      have hav' : Avail ms (t - ag.aggrStep) := by
        rcases hpv with h | h
        · by_contra hno
          rw [h] at hno
          exact h0 ⟨by omega, Or.inr hno⟩
        · exact h
      obtain ⟨w, hw⟩ := Option.isSome_iff_exists.1 ((avail_iff _ _).1 hav')
      refine ⟨w, hw, hV _ _ ?_⟩
      rw [hms, fieldAt_converted, hw]
      rfl
  · rw [accOut_data, hVt]

theorem avg_maps (ag : Aggregator) (mv : ℚ) (f : Num → Num) (ms : Messages n) (htype : ag.aggrType = "average")
    (hpos : 0 < ag.aggrStep) (h2 : ag.secondTRes = false) (hst : ag.stepType ≠ "accum") (hh : ag.halfweights = false)
    (h0 : ag.start ≠ 0) (hex : ∃ u, Avail ms u ∧ ag.end_ ≤ u) :
    ∃ (key : Int → Step) (W : Int → Arr n), (∀ t, (key t).startStep = t - ag.aggrStep ∧ (key t).endStep = t) ∧
      ag.doManipulation (convertedMsgs mv f ms) =
        .ok ((rangeList ag.start (ag.end_ + 1) ag.aggrStep).map fun t => (key t, W t)) ∧
      ∀ t, InRange ag.start ag.end_ ag.aggrStep t → MeanField mv f ms ag.aggrStep t (W t) := by
  set cs := convertedMsgs mv f ms with hms
  obtain ⟨u, hu, hue⟩ := hex
  obtain ⟨out, hout⟩ := C14_average_succeeds ag cs htype hpos h2 hst hh h0 ⟨u, (avail_converted _ _ _ _).2 hu, hue⟩
  have hout' := hout
  rw [doManipulation_avg ag cs htype] at hout'
  obtain ⟨-, first, V, -, hV, ho⟩ := average_ok ag cs hpos out hout'
  have hb : ag.avgBounds = (ag.start - ag.aggrStep, ag.end_ - ag.aggrStep + 1) := by
    unfold avgBounds
    exact if_neg (by
      rintro (h | h)
      · exact h0 h
      · rw [h2] at h; cases h)
  rw [hb] at hV ho
  dsimp only at hV ho
  have hshift : rangeList (ag.start - ag.aggrStep) (ag.end_ - ag.aggrStep + 1) ag.aggrStep =
      (rangeList ag.start (ag.end_ + 1) ag.aggrStep).map fun t => t - ag.aggrStep := by
    unfold rangeList
    rw [List.map_map, show ag.end_ - ag.aggrStep + 1 - (ag.start - ag.aggrStep) = ag.end_ + 1 - ag.start by omega]
    refine List.map_congr_left fun x _ => ?_
    dsimp only [Function.comp]
    omega
  rw [hshift, List.map_map] at ho
  refine ⟨_, _, ?_, hout.trans (congrArg _ ho), ?_⟩
  · intro t
    exact ⟨rfl, show t - ag.aggrStep + ag.aggrStep = t by omega⟩
  intro t ht
  have hmem : t - ag.aggrStep ∈ rangeList (ag.start - ag.aggrStep) (ag.end_ - ag.aggrStep + 1) ag.aggrStep := by
    obtain ⟨j, hj, hle⟩ := ht
    exact (mem_rangeList hpos).2 ⟨j, by omega, by omega⟩
  obtain ⟨F, hF, hVF⟩ := (avgVal_plain ag hh hpos cs (t - ag.aggrStep) (V (t - ag.aggrStep))).1 (hV _ hmem)
  have hG : ∀ h, t - ag.aggrStep < h → h ≤ t → ∃ w, ValidAt ms h w ∧ F h = convertedField mv f w := by
    intro h h1 h2
    obtain ⟨x, hx, hx'⟩ := hF h h1 (by omega)
    rw [hms, fieldAt_converted] at hx'
    rw [hms, isNext_converted] at hx
    cases hw : fieldAt ms x with
    | none => rw [hw] at hx'; cases hx'
    | some w =>
      rw [hw] at hx'
      injection hx' with hx'
      exact ⟨w, ⟨x, hx, hw⟩, hx'.symm⟩
  choose! G hG1 hG2 using hG
  refine ⟨G, hG1, fun i => ⟨?_, ?_⟩⟩
  · dsimp only
    rw [hVF]
    change hourSum F ag.aggrStep (t - ag.aggrStep) i / _ = _
    unfold hourSum
    congr 2
    refine List.map_congr_left fun x hx => ?_
    have hx := List.mem_range.1 hx
    rw [hG2 _ (by omega) (by omega)]
  · dsimp only
    rw [hVF]
    rfl

/-! ## two grids -/

/-- The controller's maps of a run whose intervals of the first resolution end before those of the second. -/
theorem run_two {c : CtrlIn n m} {s : Step} {a : Int} {v1 : Dict Step (Arr n)} {v2 : Dict Step (Arr m)}
    (hch : c.msgs.changeResolutionStep = some s) (hagg : c.aggregate = true) (ha : c.aggrStep = some a)
    (hend : s.endStep + a < c.end_) (h1 : c.firstPart = .ok v1)
    (h2 : (c.aggregator2 a (s.endStep + a)).doManipulation c.msgs.second = .ok v2) {p0 : Step × Arr m}
    (hp0 : v2.head? = some p0)
    (hord : (Dict.keys v1 ++ Dict.keys v2).Pairwise fun x y => x.endStep < y.endStep) :
    c.run = .ok (v1.map (fun p => (p.1, (Sum.inl (Spec.cutField c.cutOff p.2) : Field n m))) ++
      v2.map (fun p => (p.1, (Sum.inr (Spec.cutField c.cutOff p.2) : Field n m))), some p0.1) := by
  have hord' := List.pairwise_append.1 hord
  have hs : sortedBy Step.endStep (Dict.keys v2) = Dict.keys v2 :=
    sortedBy_of_sorted _ (hord'.2.1.imp fun h => Int.le_of_lt h)
  have hget : pyGet (sortedBy Step.endStep (Dict.keys v2)) 0 = .ok p0.1 := by
    cases v2 with
    | nil => cases hp0
    | cons p v2 =>
      injection hp0 with hp0
      rw [hs, ← hp0]
      rfl
  have hkm : ∀ {α β : Type} (w : Dict Step α) (g : α → β), Dict.keys (w.map fun p => (p.1, g p.2)) = Dict.keys w := by
    intro α β w g
    unfold Dict.keys
    rw [List.map_map]
    rfl
  have hn2 : (Dict.keys v2).Nodup := hord'.2.1.imp (fun h e => by rw [e] at h; omega)
  have hdisj : ∀ k ∈ Dict.keys v2, k ∉ Dict.keys v1 := by
    intro k hk hk'
    have := hord'.2.2 k hk' k hk
    omega
  have hsec : c.secondPart v1 = .ok (v1.map (fun p => (p.1, (Sum.inl p.2 : Field n m))) ++
      v2.map (fun p => (p.1, (Sum.inr p.2 : Field n m))), some p0.1) := by
    unfold CtrlIn.secondPart
    dsimp only
    rw [hch, ha]
    dsimp only
    rw [if_pos ⟨hagg, hend⟩, h2]
    dsimp only
    rw [hget]
    dsimp only
    rw [Dict.update_disjoint _ _ (by rw [hkm]; exact hn2) (by rw [hkm, hkm]; exact hdisj)]
  unfold CtrlIn.run
  rw [h1]
  dsimp only
  rw [hsec]
  dsimp only
  have hcut : (if c.cutOff = true then
      (v1.map (fun p => (p.1, (Sum.inl p.2 : Field n m))) ++ v2.map (fun p => (p.1, (Sum.inr p.2 : Field n m)))).map
        (fun p => (p.1, CtrlIn.cutField p.2))
      else v1.map (fun p => (p.1, (Sum.inl p.2 : Field n m))) ++ v2.map (fun p => (p.1, (Sum.inr p.2 : Field n m)))) =
      v1.map (fun p => (p.1, (Sum.inl (Spec.cutField c.cutOff p.2) : Field n m))) ++
      v2.map (fun p => (p.1, (Sum.inr (Spec.cutField c.cutOff p.2) : Field n m))) := by
    cases c.cutOff with
    | false => rfl
    | true =>
      rw [if_pos rfl, List.map_append, List.map_map, List.map_map]
      rfl
  rw [hcut, sortedBy_of_sorted]
  have : (v1.map (fun p => (p.1, (Sum.inl (Spec.cutField c.cutOff p.2) : Field n m))) ++
      v2.map (fun p => (p.1, (Sum.inr (Spec.cutField c.cutOff p.2) : Field n m)))).map (·.1) =
      Dict.keys v1 ++ Dict.keys v2 := by
    unfold Dict.keys
    rw [List.map_append, List.map_map, List.map_map]
    rfl
  rw [← this, List.pairwise_map] at hord
  exact hord.imp fun h => Int.le_of_lt h

theorem fields_two (ne : NumExpr) (r : RunIn n m k) (f : Num → Num) (mv : ℚ) (hmv : r.ctrl.msgs.mv = .fin mv)
    (hconv : Means ne r.conversion f) :
    r.fields ne = ({ convertedCtrl mv f r.ctrl with cutOff := cuts r } : CtrlIn n m).run := by
  unfold RunIn.fields cuts
  cases hc : r.conversion with
  | none =>
    rw [hc] at hconv
    have hf : f = id := by
      rcases hconv with ⟨-, h⟩ | ⟨t, -, -, -, h⟩
      · exact h
      · cases h
    subst hf
    unfold convertedCtrl
    rw [convertedMsgs_id, convertedMsgs_id, Option.isSome_none, Bool.false_and]
  | some s =>
    cases s with
    | none =>
      rw [hc] at hconv
      rcases hconv with ⟨h | h, -⟩ | ⟨t, -, -, -, h⟩
      · cases h
      · injection h with h; cases h
      · injection h with h; cases h
    | some s =>
      rw [hc] at hconv
      dsimp only
      rw [applyConversion_means hconv _ mv _ hmv]
      dsimp only
      rw [Option.isSome_some, Bool.true_and]
      rfl

theorem gridLoop_true {α : Type} (ch : Option Step) (l : List (Step × α)) :
    gridLoop ch true l = l.map fun p => (p.1, p.2, true) := by
  induction l with
  | nil => rfl
  | cons p l ih =>
    obtain ⟨t, v⟩ := p
    rw [gridLoop, List.map_cons, Bool.true_or, ih]

theorem gridLoop_two {α : Type} (d : Step) (l1 l2 : List (Step × α)) (h1 : ∀ p ∈ l1, p.1 ≠ d)
    (h2 : ∃ v l, l2 = (d, v) :: l) :
    gridLoop (some d) false (l1 ++ l2) = l1.map (fun p => (p.1, p.2, false)) ++ l2.map fun p => (p.1, p.2, true) := by
  induction l1 with
  | nil =>
    obtain ⟨v, l, rfl⟩ := h2
    rw [List.nil_append, gridLoop, List.map_nil, List.nil_append, List.map_cons]
    have hc : (false || isChange (some d) d) = true := by
      rw [Bool.false_or]
      exact (pyEq_iff d d).2 rfl
    rw [hc, gridLoop_true]
  | cons p l1 ih =>
    obtain ⟨t, v⟩ := p
    have hne : t ≠ d := h1 (t, v) (by simp)
    have hc : (false || isChange (some d) t) = false := by
      rw [Bool.false_or, ← Bool.not_eq_true]
      exact fun h => hne ((pyEq_iff t d).1 h)
    rw [List.cons_append, gridLoop, hc, ih (fun p hp => h1 p (by simp [hp])), List.map_cons, List.cons_append]

theorem render_second (r : RunIn n m k) (v : Arr m) (hfit : Fits r.table2 m) :
    ∃ a : Arr k, r.render true (.inr v) = .ok a ∧ (∀ c, a.masked c = false) ∧
      ∀ c, a.data c = finalCell r.height2 (cellOf r.table2 r.mvOut v c) c := by
  unfold RunIn.render
  dsimp only
  rw [if_pos rfl, if_pos rfl, interpolate_eq _ _ _ hfit]
  exact ⟨_, rfl, (corrected_cell _ _).1, (corrected_cell _ _).2⟩

/-- The files of a run on two grids. -/
theorem pcraster_two (ne : NumExpr) (r : RunIn n m k) (f : Num → Num) (mv : ℚ) (hmv : r.ctrl.msgs.mv = .fin mv)
    (hconv : Means ne r.conversion f) (hfit : Fits r.table n) (hfit2 : Fits r.table2 m) {s : Step} {a : Int}
    (hch : r.ctrl.msgs.changeResolutionStep = some s) (hagg : r.ctrl.aggregate = true)
    (ha : r.ctrl.aggrStep = some a) (hend : s.endStep + a < r.ctrl.end_)
    {l1 l2 : List Int} {key1 key2 : Int → Step} {V1 : Int → Arr n} {V2 : Int → Arr m}
    (h1 : (convertedCtrl mv f r.ctrl).firstPart = .ok (l1.map fun t => (key1 t, V1 t)))
    (h2 : (r.ctrl.aggregator2 a (s.endStep + a)).doManipulation (convertedMsgs mv f r.ctrl.msgs.second) =
      .ok (l2.map fun t => (key2 t, V2 t)))
    (hne : l2 ≠ []) (hord : (l1.map key1 ++ l2.map key2).Pairwise fun x y => x.endStep < y.endStep) :
    ∃ files, r.pcraster ne = .ok files ∧ files.length = l1.length + l2.length ∧
      (∀ (j : Nat) t, l1[j]? = some t → files[j]? = some (pcrName r.namePrefix r.fmap r.ext (j + 1),
        fileCells r r.table r.height (V1 t))) ∧
      ∀ (j : Nat) t, l2[j]? = some t → files[l1.length + j]? =
        some (pcrName r.namePrefix r.fmap r.ext ((l1.length : Int) + j + 1),
          fileCells r r.table2 r.height2 (V2 t)) := by
  obtain ⟨t0, l2', rfl⟩ := List.exists_cons_of_ne_nil hne
  have hk : ∀ {α : Type} (l : List Int) (key : Int → Step) (V : Int → α),
      Dict.keys (l.map fun t => (key t, V t)) = l.map key := by
    intro α l key V
    unfold Dict.keys
    rw [List.map_map]
    rfl
  have hrun := run_two (c := { convertedCtrl mv f r.ctrl with cutOff := cuts r }) hch hagg ha hend h1 h2
    (p0 := (key2 t0, V2 t0)) rfl (by rw [hk, hk]; exact hord)
  rw [← fields_two ne r f mv hmv hconv] at hrun
  dsimp only at hrun
  rw [List.map_map, List.map_map] at hrun
  set A : List (Step × Field n m) := l1.map fun t => (key1 t, (Sum.inl (Spec.cutField (cuts r) (V1 t)) : Field n m))
    with hA
  set B : List (Step × Field n m) :=
    (t0 :: l2').map fun t => (key2 t, (Sum.inr (Spec.cutField (cuts r) (V2 t)) : Field n m)) with hB
  have hrun' : r.fields ne = .ok (A ++ B, some (key2 t0)) := hrun
  have hgl : gridLoop (some (key2 t0)) false (A ++ B) =
      A.map (fun p => (p.1, p.2, false)) ++ B.map fun p => (p.1, p.2, true) := by
    refine gridLoop_two _ _ _ ?_ ⟨_, _, rfl⟩
    intro p hp hpe
    obtain ⟨t, ht, rfl⟩ := List.mem_map.1 hp
    have := (List.pairwise_append.1 hord).2.2 (key1 t) (List.mem_map_of_mem ht) (key2 t0) (by simp)
    dsimp only at hpe
    rw [hpe] at this
    omega
  -- contents of the files
  have hcell : ∀ {q : Nat} {D : Arr q} {t h} {x : Arr k}, (∀ c, x.masked c = false) →
      (∀ c, x.data c = finalCell h (cellOf t r.mvOut (Spec.cutField (cuts r) D) c) c) →
      pcrWrite r.mask r.mvClone x = fileCells r t h D := by
    intro q D t h x hm hd
    funext c
    rw [pcrWrite_shown _ _ _ _ (hm c), hd c]
    rfl
  have hr1 : ∀ t, (r.render false (.inl (Spec.cutField (cuts r) (V1 t)))).map (pcrWrite r.mask r.mvClone) =
      .ok (fileCells r r.table r.height (V1 t)) := by
    intro t
    obtain ⟨x, hx, hm, hd⟩ := render_first r (Spec.cutField (cuts r) (V1 t)) hfit
    rw [hx]
    exact congrArg Except.ok (hcell hm hd)
  have hr2 : ∀ t, (r.render true (.inr (Spec.cutField (cuts r) (V2 t)))).map (pcrWrite r.mask r.mvClone) =
      .ok (fileCells r r.table2 r.height2 (V2 t)) := by
    intro t
    obtain ⟨x, hx, hm, hd⟩ := render_second r (Spec.cutField (cuts r) (V2 t)) hfit2
    rw [hx]
    exact congrArg Except.ok (hcell hm hd)
  have hp : r.pcraster ne = .ok
      (((l1.zipIdx 1).map fun q => (pcrName r.namePrefix r.fmap r.ext q.2, fileCells r r.table r.height (V1 q.1))) ++
       (((t0 :: l2').zipIdx (l1.length + 1)).map fun q =>
        (pcrName r.namePrefix r.fmap r.ext q.2, fileCells r r.table2 r.height2 (V2 q.1)))) := by
    unfold RunIn.pcraster
    rw [hrun']
    dsimp only
    unfold writePcraster
    rw [hgl, List.zipIdx_append, List.map_append, List.mapM_append, hA, hB]
    simp only [List.map_map, List.length_map, List.zipIdx_map, List.mapM_map]
    rw [mapM_all_ok _ (fun q : Int × Nat => (pcrName r.namePrefix r.fmap r.ext q.2,
        fileCells r r.table r.height (V1 q.1))) _ (by
          intro q _
          dsimp only [Function.comp, Prod.map]
          rw [hr1]
          rfl),
      mapM_all_ok _ (fun q : Int × Nat => (pcrName r.namePrefix r.fmap r.ext q.2,
        fileCells r r.table2 r.height2 (V2 q.1))) _ (by
          intro q _
          dsimp only [Function.comp, Prod.map]
          rw [hr2]
          rfl), Nat.add_comm 1]
    rfl
  refine ⟨_, hp, by simp, ?_, ?_⟩
  · intro j t hj
    have hlt := (List.getElem?_eq_some_iff.1 hj).1
    rw [List.getElem?_append_left (by simpa using hlt), List.getElem?_map, List.getElem?_zipIdx, hj]
    simp only [Option.map_some, Nat.add_comm 1 j]
    rfl
  · intro j t hj
    rw [List.getElem?_append_right (by simp), List.length_map, List.length_zipIdx, Nat.add_sub_cancel_left,
      List.getElem?_map, List.getElem?_zipIdx, hj]
    simp only [Option.map_some]
    congr 3
    push_cast
    omega

/-! ## C135, C136 -/

theorem range_files {lo hi a : Int} (hpos : 0 < a) (j : Nat) :
    j < (rangeList lo (hi + 1) a).length ↔ lo + j * a ≤ hi := by
  constructor
  · intro h
    have := rangeList_length_le hpos j h
    omega
  · intro h
    have := rangeList_get (a := lo) (b := hi + 1) (s := a) hpos j (by omega)
    exact (List.getElem?_eq_some_iff.1 this).1

/-- What the two-grid theorems share: given the maps of the two aggregations. -/
theorem two_grids {ne : NumExpr} {r : RunIn n m k} {f : Num → Num} {mv : ℚ} (hmv : r.ctrl.msgs.mv = .fin mv)
    (hconv : Means ne r.conversion f) (hfit : Fits r.table n) (hfit2 : Fits r.table2 m) {s : Step} {a : Int}
    (hch : r.ctrl.msgs.changeResolutionStep = some s) (hse : s.startStep ≤ s.endStep)
    (hagg : r.ctrl.aggregate = true) (ha : r.ctrl.aggrStep = some a) (hpos : 0 < a)
    (hend : s.endStep + a < r.ctrl.end_) {lo : Int} {key1 key2 : Int → Step} {V1 : Int → Arr n} {V2 : Int → Arr m}
    (hk1 : ∀ t, (key1 t).startStep = t - a ∧ (key1 t).endStep = t)
    (hk2 : ∀ t, (key2 t).startStep = t - a ∧ (key2 t).endStep = t)
    (h1 : (convertedCtrl mv f r.ctrl).firstPart =
      .ok ((rangeList lo (s.startStep + 1) a).map fun t => (key1 t, V1 t)))
    (h2 : (r.ctrl.aggregator2 a (s.endStep + a)).doManipulation (convertedMsgs mv f r.ctrl.msgs.second) =
      .ok ((rangeList (s.endStep + a) (r.ctrl.end_ + 1) a).map fun t => (key2 t, V2 t))) :
    ∃ files n1 n2, r.pcraster ne = .ok files ∧ files.length = n1 + n2 ∧
      (∀ j : Nat, j < n1 ↔ lo + j * a ≤ s.startStep) ∧
      (∀ j : Nat, j < n2 ↔ s.endStep + a + j * a ≤ r.ctrl.end_) ∧
      (∀ (j : Nat) t, t = lo + j * a → t ≤ s.startStep →
        files[j]? = some (pcrName r.namePrefix r.fmap r.ext (j + 1), fileCells r r.table r.height (V1 t))) ∧
      ∀ (j : Nat) t, t = s.endStep + a + j * a → t ≤ r.ctrl.end_ →
        files[n1 + j]? = some (pcrName r.namePrefix r.fmap r.ext ((n1 : Int) + j + 1),
          fileCells r r.table2 r.height2 (V2 t)) := by
  obtain ⟨files, hp, hlen, hg1, hg2⟩ := pcraster_two ne r f mv hmv hconv hfit hfit2 hch hagg ha hend h1 h2
    (by
      rw [rangeList_cons hpos (by omega)]
      exact List.cons_ne_nil _ _)
    (by
      rw [List.pairwise_append]
      refine ⟨?_, ?_, ?_⟩
      · rw [List.pairwise_map]
        refine (rangeList_pairwise hpos).imp fun h => ?_
        rw [(hk1 _).2, (hk1 _).2]
        exact h
      · rw [List.pairwise_map]
        refine (rangeList_pairwise hpos).imp fun h => ?_
        rw [(hk2 _).2, (hk2 _).2]
        exact h
      · intro x hx y hy
        obtain ⟨t, ht, rfl⟩ := List.mem_map.1 hx
        obtain ⟨u, hu, rfl⟩ := List.mem_map.1 hy
        rw [(hk1 _).2, (hk2 _).2]
        obtain ⟨_, -, h⟩ := (mem_rangeList hpos).1 ht
        obtain ⟨i, hi, -⟩ := (mem_rangeList hpos).1 hu
        have : 0 ≤ (i : Int) * a := Int.mul_nonneg (by omega) (by omega)
        omega)
  refine ⟨files, _, _, hp, hlen, fun j => range_files hpos j, fun j => range_files hpos j, ?_, ?_⟩
  · intro j t ht hle
    refine hg1 j t ?_
    rw [ht]
    exact rangeList_get hpos j (by omega)
  · intro j t ht hle
    refine hg2 j t ?_
    rw [ht]
    exact rangeList_get hpos j (by omega)

/-- **C135.** An accumulation run with steps of `a` hours whose grid changes at message `s` and that ends more than `a`
hours after it; the steps needed are available on each grid (a missing step 0 counts as zero). It writes first the
intervals that end at `start, start + a, ...` up to the start of `s`, made with the table and the heights of the first
grid from the messages of the first grid, then the intervals that end at `end of s + a, end of s + 2a, ...` up to the
end of the run, made with the table and the heights of the second grid from the messages of the second grid; the files
are numbered through. -/
theorem two_grid_accumulation_run (ne : NumExpr) (r : RunIn n m k) (f : Num → Num) (mv : ℚ)
    (hmv : r.ctrl.msgs.mv = .fin mv) (hconv : Means ne r.conversion f) (hfit : Fits r.table n)
    (hfit2 : Fits r.table2 m) (s : Step) (a : Int) (hch : r.ctrl.msgs.changeResolutionStep = some s)
    (hse : s.startStep ≤ s.endStep) (h0 : 0 ≤ s.endStep) (hagg : r.ctrl.aggregate = true)
    (ha : r.ctrl.aggrStep = some a) (hpos : 0 < a) (hend : s.endStep + a < r.ctrl.end_)
    (htype : r.ctrl.aggrType = "accumulation") (hne : r.ctrl.msgs.first ≠ [])
    (hcur : ∀ t, InRange (firstEnd r.ctrl.start a) s.startStep a t →
      Avail r.ctrl.msgs.first t ∧ (t - a = 0 ∨ Avail r.ctrl.msgs.first (t - a)))
    (hcur2 : ∀ t, InRange (s.endStep + a) r.ctrl.end_ a t →
      Avail r.ctrl.msgs.second t ∧ (t - a = 0 ∨ Avail r.ctrl.msgs.second (t - a))) :
    ∃ files n1 n2, r.pcraster ne = .ok files ∧ files.length = n1 + n2 ∧
      (∀ j : Nat, j < n1 ↔ firstEnd r.ctrl.start a + j * a ≤ s.startStep) ∧
      (∀ j : Nat, j < n2 ↔ s.endStep + a + j * a ≤ r.ctrl.end_) ∧
      (∀ (j : Nat) t, t = firstEnd r.ctrl.start a + j * a → t ≤ s.startStep →
        ∃ D, AccumulatedField mv f r.ctrl.msgs.first r.ctrl.forceZero r.ctrl.unitTime a t D ∧
          files[j]? = some (pcrName r.namePrefix r.fmap r.ext (j + 1), fileCells r r.table r.height D)) ∧
      ∀ (j : Nat) t, t = s.endStep + a + j * a → t ≤ r.ctrl.end_ →
        ∃ D, AccumulatedField mv f r.ctrl.msgs.second r.ctrl.forceZero r.ctrl.unitTime a t D ∧
          files[n1 + j]? = some (pcrName r.namePrefix r.fmap r.ext ((n1 : Int) + j + 1),
            fileCells r r.table2 r.height2 D) := by
  have hst2 : firstEnd (s.endStep + a) a = s.endStep + a := by
    unfold firstEnd
    rw [if_neg (by omega)]
  have hne2 : r.ctrl.msgs.second ≠ [] := by
    intro h
    have := (hcur2 (s.endStep + a) ⟨0, by omega, by omega⟩).1
    rw [h, avail_iff] at this
    cases this
  obtain ⟨key1, V1, hk1, h1, hV1⟩ := acc_maps ((r.ctrl.aggregator a).changeEndStep s.startStep) mv f r.ctrl.msgs.first
    hpos hne hcur
  obtain ⟨key2, V2, hk2, h2, hV2⟩ := acc_maps (r.ctrl.aggregator2 a (s.endStep + a)) mv f r.ctrl.msgs.second
    hpos hne2 (by
      change ∀ t, InRange (firstEnd (s.endStep + a) a) _ _ t → _
      rw [hst2]
      exact hcur2)
  change _ = Except.ok ((rangeList (firstEnd (s.endStep + a) a) _ _).map _) at h2
  change ∀ t, InRange (firstEnd (s.endStep + a) a) _ _ t → _ at hV2
  rw [hst2] at h2 hV2
  have hf1 : (convertedCtrl mv f r.ctrl).firstPart =
      .ok ((rangeList (firstEnd r.ctrl.start a) (s.startStep + 1) a).map fun t => (key1 t, V1 t)) := by
    unfold CtrlIn.firstPart
    rw [if_pos (show (convertedCtrl mv f r.ctrl).aggregate = true from hagg),
      show (convertedCtrl mv f r.ctrl).aggrStep = some a from ha,
      show (convertedCtrl mv f r.ctrl).msgs.changeResolutionStep = some s from hch]
    exact (doManipulation_acc _ _ htype).trans h1
  obtain ⟨files, n1, n2, hp, hlen, hn1, hn2, hg1, hg2⟩ := two_grids hmv hconv hfit hfit2 hch hse hagg ha hpos hend hk1
    hk2 hf1 ((doManipulation_acc _ _ htype).trans h2)
  exact ⟨files, n1, n2, hp, hlen, hn1, hn2,
    fun j t ht hle => ⟨_, hV1 t ⟨j, ht, hle⟩, hg1 j t ht hle⟩,
    fun j t ht hle => ⟨_, hV2 t ⟨j, ht, hle⟩, hg2 j t ht hle⟩⟩

/-- **C136.** The same for averages (without half weights, with a start different from 0 and step types other than
`accum`) where the messages of the first grid reach the start of `s` and those of the second the end of the run. -/
theorem two_grid_average_run (ne : NumExpr) (r : RunIn n m k) (f : Num → Num) (mv : ℚ)
    (hmv : r.ctrl.msgs.mv = .fin mv) (hconv : Means ne r.conversion f) (hfit : Fits r.table n)
    (hfit2 : Fits r.table2 m) (s : Step) (a : Int) (hch : r.ctrl.msgs.changeResolutionStep = some s)
    (hse : s.startStep ≤ s.endStep) (h0 : 0 ≤ s.endStep) (hagg : r.ctrl.aggregate = true)
    (ha : r.ctrl.aggrStep = some a) (hpos : 0 < a) (hend : s.endStep + a < r.ctrl.end_)
    (htype : r.ctrl.aggrType = "average") (hst : r.ctrl.stepType ≠ "accum") (hst2 : r.ctrl.stepType2 ≠ "accum")
    (hh : r.ctrl.halfweights = false) (hstart : r.ctrl.start ≠ 0)
    (hex : ∃ u, Avail r.ctrl.msgs.first u ∧ s.startStep ≤ u)
    (hex2 : ∃ u, Avail r.ctrl.msgs.second u ∧ r.ctrl.end_ ≤ u) :
    ∃ files n1 n2, r.pcraster ne = .ok files ∧ files.length = n1 + n2 ∧
      (∀ j : Nat, j < n1 ↔ r.ctrl.start + j * a ≤ s.startStep) ∧
      (∀ j : Nat, j < n2 ↔ s.endStep + a + j * a ≤ r.ctrl.end_) ∧
      (∀ (j : Nat) t, t = r.ctrl.start + j * a → t ≤ s.startStep →
        ∃ D, MeanField mv f r.ctrl.msgs.first a t D ∧
          files[j]? = some (pcrName r.namePrefix r.fmap r.ext (j + 1), fileCells r r.table r.height D)) ∧
      ∀ (j : Nat) t, t = s.endStep + a + j * a → t ≤ r.ctrl.end_ →
        ∃ D, MeanField mv f r.ctrl.msgs.second a t D ∧
          files[n1 + j]? = some (pcrName r.namePrefix r.fmap r.ext ((n1 : Int) + j + 1),
            fileCells r r.table2 r.height2 D) := by
  obtain ⟨key1, V1, hk1, h1, hV1⟩ := avg_maps ((r.ctrl.aggregator a).changeEndStep s.startStep) mv f r.ctrl.msgs.first
    htype hpos rfl hst hh hstart hex
  obtain ⟨key2, V2, hk2, h2, hV2⟩ := avg_maps (r.ctrl.aggregator2 a (s.endStep + a)) mv f r.ctrl.msgs.second
    htype hpos rfl hst2 hh (show s.endStep + a ≠ 0 by omega) hex2
  have hf1 : (convertedCtrl mv f r.ctrl).firstPart =
      .ok ((rangeList r.ctrl.start (s.startStep + 1) a).map fun t => (key1 t, V1 t)) := by
    unfold CtrlIn.firstPart
    rw [if_pos (show (convertedCtrl mv f r.ctrl).aggregate = true from hagg),
      show (convertedCtrl mv f r.ctrl).aggrStep = some a from ha,
      show (convertedCtrl mv f r.ctrl).msgs.changeResolutionStep = some s from hch]
    exact h1
  obtain ⟨files, n1, n2, hp, hlen, hn1, hn2, hg1, hg2⟩ := two_grids hmv hconv hfit hfit2 hch hse hagg ha hpos hend hk1
    hk2 hf1 h2
  exact ⟨files, n1, n2, hp, hlen, hn1, hn2,
    fun j t ht hle => ⟨_, hV1 t ⟨j, ht, hle⟩, hg1 j t ht hle⟩,
    fun j t ht hle => ⟨_, hV2 t ⟨j, ht, hle⟩, hg2 j t ht hle⟩⟩

/-! ### a run -/

namespace Demo

/-- Messages on two grids (2 points up to 12 hours, then one point), accumulated. -/
def twoMsgs : MsgSet 2 1 :=
  ⟨[(⟨6, 6, 640, 6, 0⟩, ⟨fun i => .fin (if i = 0 then 2 else 3), none⟩),
    (⟨12, 12, 640, 6, 0⟩, ⟨fun i => .fin (if i = 0 then 5 else 7), none⟩)],
   [(⟨12, 12, 320, 6, 0⟩, ⟨fun _ => .fin 6, none⟩), (⟨18, 18, 320, 6, 0⟩, ⟨fun _ => .fin 10, none⟩),
    (⟨24, 24, 320, 6, 0⟩, ⟨fun _ => .fin 11, none⟩)], .fin 9999,
    ⟨"g".toList, 320, some ("h".toList, ⟨12, 12, 320, 6, 0⟩)⟩, ⟨6, 6, 640, 6, 0⟩⟩

/-- Six-hourly accumulation with conversion `x=x*2` on two cells. -/
def runTwo : RunIn 2 1 2 where
  ctrl := ⟨twoMsgs, true, some 6, "accumulation", false, false, 6, 6, "accum", "accum", 0, 24, false⟩
  conversion := some (some "x=x*2".toList)
  table := .nearest fun c => c
  table2 := .weighted fun c => if c = 0 then [(0, .fin 1)] else [(0, .fin (1 / 2))]
  mvOut := .fin (-9999)
  height := none
  height2 := none
  mask := none
  mvClone := .fin (-1)
  namePrefix := "pr".toList
  fmap := 1
  ext := 1

end Demo

/-- Two files on the first grid, two on the second. -/
example : Demo.runTwo.pcraster Demo.runNe = .ok
    [("pr000000.001".toList, fun c => if c = 0 then .fin 4 else .fin 6),
     ("pr000000.002".toList, fun c => if c = 0 then .fin 6 else .fin 8),
     ("pr000000.003".toList, fun c => if c = 0 then .fin 8 else .fin 4),
     ("pr000000.004".toList, fun c => if c = 0 then .fin 2 else .fin 1)] := by
  decide +kernel

/-- It meets the hypotheses of `two_grid_accumulation_run`. -/
example : ∃ files n1 n2, Demo.runTwo.pcraster Demo.runNe = .ok files ∧ files.length = n1 + n2 ∧
    (∀ j : Nat, j < n1 ↔ 6 + (j : Int) * 6 ≤ 12) ∧ (∀ j : Nat, j < n2 ↔ 18 + (j : Int) * 6 ≤ 24) := by
  have av : ∀ {q : Nat} (ms : Messages q) (t : Int), (∃ p ∈ ms, p.1.endStep = t) → Avail ms t := fun ms t h => h
  obtain ⟨files, n1, n2, h1, h2, h3, h4, -⟩ := two_grid_accumulation_run Demo.runNe Demo.runTwo (fun a => a * .fin 2)
    9999 rfl (Or.inr ⟨"x*2".toList, by
      intro a b h
      have h2 : '=' ∈ "x*2".toList := by rw [h]; simp
      revert h2; decide, by decide, rfl, rfl⟩) (by intro c; change (c : Nat) ≤ 2; omega)
    (by
      intro c p hp
      change p ∈ (if c = 0 then [(0, Num.fin 1)] else [(0, Num.fin (1 / 2))]) at hp
      split at hp
      · rw [List.mem_singleton] at hp; rw [hp]; omega
      · rw [List.mem_singleton] at hp; rw [hp]; omega)
    ⟨12, 12, 320, 6, 0⟩ 6 rfl (by decide) (by decide) rfl rfl (by decide) (by decide) rfl (by intro h; cases h)
    (by
      rintro t ⟨j, hj, hle⟩
      have hj' : t = 6 + (j : Int) * 6 := hj
      have hle' : t ≤ 12 := hle
      have : j = 0 ∨ j = 1 := by omega
      rcases this with rfl | rfl
      · have : t = 6 := by omega
        subst this
        exact ⟨av _ _ (by unfold Demo.runTwo Demo.twoMsgs; simp), Or.inl (by omega)⟩
      · have : t = 12 := by omega
        subst this
        exact ⟨av _ _ (by unfold Demo.runTwo Demo.twoMsgs; simp), Or.inr (av _ _ (by unfold Demo.runTwo Demo.twoMsgs; simp))⟩)
    (by
      rintro t ⟨j, hj, hle⟩
      have hj' : t = 12 + 6 + (j : Int) * 6 := hj
      have hle' : t ≤ 24 := hle
      have : j = 0 ∨ j = 1 := by omega
      rcases this with rfl | rfl
      · have : t = 18 := by omega
        subst this
        exact ⟨av _ _ (by unfold Demo.runTwo Demo.twoMsgs; simp), Or.inr (av _ _ (by unfold Demo.runTwo Demo.twoMsgs; simp))⟩
      · have : t = 24 := by omega
        subst this
        exact ⟨av _ _ (by unfold Demo.runTwo Demo.twoMsgs; simp), Or.inr (av _ _ (by unfold Demo.runTwo Demo.twoMsgs; simp))⟩)
  exact ⟨files, n1, n2, h1, h2, h3, h4⟩

/-- The same messages, averaged from 6 hours on: 6–12 hours of the first grid, 12–18 and 18–24 of the second. -/
example : ({ Demo.runTwo with
      ctrl := ⟨Demo.twoMsgs, true, some 6, "average", false, false, 6, 6, "instant", "instant", 12, 24, false⟩ } :
      RunIn 2 1 2).pcraster Demo.runNe = .ok
    [("pr000000.001".toList, fun c => if c = 0 then .fin 10 else .fin 14),
     ("pr000000.002".toList, fun c => if c = 0 then .fin 20 else .fin 10),
     ("pr000000.003".toList, fun c => if c = 0 then .fin 22 else .fin 11)] := by
  decide +kernel

end PyG2P
