import Verif.Props.CommandRun

/-! # Whole runs that extract steps or average with half weights (C160, C161) -/

namespace PyG2P
open Spec TableApply Converter Aggregator CommandRun
variable {n m k : Nat}

namespace Spec

/-- First step of an extraction: one aggregation step before the start, if that is after 0. -/
def extractFirst (start a : Int) : Int := if 0 < start - a then start - a else start

/-- Weight of step `h` in the interval from `s` to `t`: one half at its ends. -/
def endWeight (s t h : Int) : ℚ := if h = s ∨ h = t then 1 / 2 else 1

end Spec

/-! ## Extraction -/

/-- **C160.** Extraction of steps `a` apart from messages on one grid (neither accumulated nor averaged): one file for each
step from `extractFirst` to the end; its cells are what the table gives for the converted field valid at the step (of the
first message that ends there or later), for zeros at step 0 if no message ends there. -/
theorem instantaneous_run (ne : NumExpr) (r : RunIn n m k) (f : Num → Num) (mv : ℚ) (hmv : r.ctrl.msgs.mv = .fin mv)
    (hconv : Means ne r.conversion f) (hone : r.ctrl.msgs.changeResolutionStep = none) (hfit : Fits r.table n)
    (hagg : r.ctrl.aggregate = true) (a : Int) (ha : r.ctrl.aggrStep = some a) (hpos : 0 < a)
    (htype : r.ctrl.aggrType = "instantaneous") (hst : r.ctrl.stepType ≠ "accum") (hst2 : r.ctrl.stepType ≠ "avg")
    (hex : ∃ u, Avail r.ctrl.msgs.first u ∧ r.ctrl.end_ ≤ u) (first : Int) (hfirst : first = extractFirst r.ctrl.start a) :
    ∃ files, r.pcraster ne = .ok files ∧
      (∀ j : Nat, j < files.length ↔ first + j * a ≤ r.ctrl.end_) ∧
      ∀ (j : Nat) t, t = first + j * a → t ≤ r.ctrl.end_ →
        ∃ D : Arr n, (∀ i, D.masked i = false) ∧
          (if t = 0 ∧ ¬ Avail r.ctrl.msgs.first 0 then ∀ i, D.data i = 0
           else ∃ v, ValidAt r.ctrl.msgs.first t v ∧ ∀ i, D.data i = (convertedField mv f v).data i) ∧
          files[j]? = some (pcrName r.namePrefix r.fmap r.ext (j + 1), fun c => shown r.mask r.mvClone
            (finalCell r.height (cellOf r.table r.mvOut (Spec.cutField (cuts r) D) c) c) c) := by
  set ag := (convertedCtrl mv f r.ctrl).aggregator a with hag
  set ms := convertedMsgs mv f r.ctrl.msgs.first with hms
  have hf1 : (convertedCtrl mv f r.ctrl).firstPart = ag.doManipulation ms :=
    firstPart_aggregated (c := convertedCtrl mv f r.ctrl) hagg ha hone
  obtain ⟨u, hu, hue⟩ := hex
  obtain ⟨out, hout⟩ := C14_instantaneous_succeeds ag ms htype hpos hst ⟨u, (avail_converted _ _ _ _).2 hu, hue⟩
  have hout' := hout
  rw [doManipulation_inst ag ms htype] at hout'
  obtain ⟨-, fst, V, -, hV, ho⟩ := instantaneous_ok ag ms hpos out hout'
  have hb : ag.findStart = first := by
    rw [hfirst]
    unfold findStart
    exact if_neg hst2
  rw [hb] at hV ho
  change ∀ t ∈ rangeList first (r.ctrl.end_ + 1) a, _ at hV
  obtain ⟨files, hfiles, hlen, hget⟩ := files_of (r := r) hmv hconv hone hfit (hf1.trans (hout.trans (congrArg _ ho)))
    (by
      rw [List.pairwise_map]
      exact rangeList_pairwise hpos)
  refine ⟨files, hfiles, ?_, ?_⟩
  · intro j
    rw [hlen]
    change j < (rangeList first (r.ctrl.end_ + 1) a).length ↔ _
    constructor
    · intro h
      have := rangeList_length_le hpos j h
      omega
    · intro h
      have := rangeList_get (a := first) (b := r.ctrl.end_ + 1) (s := a) hpos j (by omega)
      exact (List.getElem?_eq_some_iff.1 this).1
  · intro j t ht hle
    have hj : (rangeList first (r.ctrl.end_ + 1) a)[j]? = some t := by
      rw [rangeList_get hpos j (by omega), ht]
    have hfile := hget j t hj
    have hav := avail_converted mv f r.ctrl.msgs.first
    refine ⟨V t, ?_, ?_, hfile⟩
    · rcases (instField_ok ms t (V t)).1 (hV _ (List.mem_of_getElem? hj)) with ⟨-, v, -, hm⟩ | ⟨-, -, hm⟩
      · intro i; rw [hm]; rfl
      · intro i; rw [hm]; rfl
    · rcases (instField_ok ms t (V t)).1 (hV _ (List.mem_of_getElem? hj)) with ⟨h1, v, hv, hm⟩ | ⟨h1, h2, hm⟩
      · rw [if_neg (by
          rintro ⟨e, hn⟩
          rcases h1 with h1 | h1
          · rw [hms, hav, e] at h1; exact hn h1
          · exact h1 e)]
        obtain ⟨x, hx, hx'⟩ := hv
        rw [hms, fieldAt_converted] at hx'
        rw [hms, isNext_converted] at hx
        cases hw : fieldAt r.ctrl.msgs.first x with
        | none => rw [hw] at hx'; cases hx'
        | some w =>
          rw [hw] at hx'
          injection hx' with hx'
          exact ⟨w, ⟨x, hx, hw⟩, fun i => by rw [hm, ← hx']⟩
      · rw [hms, hav] at h1
        rw [if_pos ⟨h2, h2 ▸ h1⟩]
        intro i
        rw [hm]
        rfl

/-! ## Half weights -/

theorem halfFold_total (vo : Dict Int (Arr n)) (a b : Int) (d1 d2 : Num) (l : List Int) :
    ∀ acc, ∃ r, l.foldlM (halfHour vo a b d1 d2) acc = .ok r := by
  induction l with
  | nil => intro acc; exact ⟨acc, rfl⟩
  | cons h l ih =>
    intro acc
    rw [List.foldlM_cons]
    unfold halfHour
    by_cases hin : h ∈ Dict.keys vo
    · obtain ⟨v, hv⟩ : ∃ v, Dict.get? vo h = some v := by
        cases hg : Dict.get? vo h with
        | none => exact absurd hin (Dict.get?_eq_none_iff.1 hg)
        | some v => exact ⟨v, rfl⟩
      rw [if_pos hin, Dict.getE_of_get? hv]
      exact ih _
    · rw [if_neg hin]
      exact ih acc

theorem avgVal_half_total (ag : Aggregator) (hh : ag.halfweights = true) (vo : Dict Int (Arr n)) (s : Int) :
    ∃ v, avgVal ag vo s = .ok v := by
  unfold avgVal avgSums
  simp only [hh, if_true]
  rw [pyRange_pos (by omega : (0 : Int) < 1), ok_bind]
  split
  · obtain ⟨r, hr⟩ := halfFold_total vo s (s + ag.aggrStep + 1) _ _ (rangeList s (s + ag.aggrStep + 1) 1) (fun _ => 0, 0)
    rw [hr]
    exact ⟨_, rfl⟩
  · exact ⟨_, rfl⟩

theorem half_succeeds (ag : Aggregator) (ms : Messages n) (htype : ag.aggrType = "average") (hs : 0 < ag.aggrStep)
    (hst : ag.stepType ≠ "accum") (hh : ag.halfweights = true) (hne : ms ≠ []) : ∃ out, ag.doManipulation ms = .ok out := by
  rw [doManipulation_avg ag ms htype]
  obtain ⟨p, ms', rfl⟩ := List.exists_cons_of_ne_nil hne
  rw [average_intro ag _ hs hst p rfl]
  exact fold_out_total (avgIter_eq ag _ p.1.resolution p.1.level) _ (fun t _ => avgVal_half_total ag hh _ t) []

/-- A common factor of the weights does not matter. -/
theorem weights_scaled {α : Type} (l : List α) (g : α → Num) (w : α → ℚ) (c : ℚ) (hc : c ≠ 0) :
    (l.map fun h => g h * .fin (c * w h)).sum / .fin ((l.map fun h => c * w h).sum) =
      (l.map fun h => g h * .fin (w h)).sum / .fin ((l.map w).sum) := by
  by_cases hall : ∀ h ∈ l, ∃ q : ℚ, g h = .fin q
  · have e1 : ∀ v : α → ℚ, (l.map fun h => g h * .fin (v h)) = l.map fun h => Num.fin (toRat (g h) * v h) := by
      intro v
      refine List.map_congr_left fun h hh => ?_
      obtain ⟨q, hq⟩ := hall h hh
      rw [hq, Num.fin_mul]
      rfl
    rw [e1, e1, sum_fin_map, sum_fin_map]
    have e2 : (l.map fun h => toRat (g h) * (c * w h)).sum = c * (l.map fun h => toRat (g h) * w h).sum := by
      rw [← List.sum_map_mul_left]
      congr 1
      exact List.map_congr_left fun h _ => by ring
    have e3 : (l.map fun h => c * w h).sum = c * (l.map w).sum := List.sum_map_mul_left _ _ _
    rw [e2, e3, Num.fin_div, Num.fin_div]
    by_cases h0 : (l.map w).sum = 0
    · rw [h0, mul_zero, if_pos rfl, if_pos rfl]
    · rw [if_neg (mul_ne_zero hc h0), if_neg h0, mul_div_mul_left _ _ hc]
  · push Not at hall
    obtain ⟨x, hx, hn⟩ := hall
    have hg : g x = .nan := by
      cases hgx : g x with
      | fin q => exact absurd hgx (hn q)
      | nan => rfl
    rw [sum_nan l _ x hx (by rw [hg]; rfl), sum_nan l _ x hx (by rw [hg]; rfl)]
    rfl

theorem availIn_converted (mv : ℚ) (f : Num → Num) (ms : Messages n) (s a : Int) :
    availIn (convertedMsgs mv f ms) s a = availIn ms s a := by
  unfold availIn
  congr 1
  funext h
  exact decide_eq_decide.2 (avail_converted mv f ms h)

/-- **C161.** An average with half weights over steps of `a` from a start different from 0, of messages on one grid that
are not accumulated: one file for each step `t = start, start + a, …` up to the end. With at least two available steps in
`[t - a, t]`, the table is applied to the mean of the converted fields of these steps, those at the two ends with half the
weight of the others (cells without missing mark); with fewer to a field that is NaN everywhere. -/
theorem half_weight_run (ne : NumExpr) (r : RunIn n m k) (f : Num → Num) (mv : ℚ) (hmv : r.ctrl.msgs.mv = .fin mv)
    (hconv : Means ne r.conversion f) (hone : r.ctrl.msgs.changeResolutionStep = none) (hfit : Fits r.table n)
    (hagg : r.ctrl.aggregate = true) (a : Int) (ha : r.ctrl.aggrStep = some a) (hpos : 0 < a)
    (htype : r.ctrl.aggrType = "average") (hst : r.ctrl.stepType ≠ "accum") (hh : r.ctrl.halfweights = true)
    (h0 : r.ctrl.start ≠ 0) (hne : r.ctrl.msgs.first ≠ []) :
    ∃ files, r.pcraster ne = .ok files ∧
      (∀ j : Nat, j < files.length ↔ r.ctrl.start + j * a ≤ r.ctrl.end_) ∧
      ∀ (j : Nat) t, t = r.ctrl.start + j * a → t ≤ r.ctrl.end_ →
        ∃ (l : List Int) (D : Arr n), l.Pairwise (· < ·) ∧
          (∀ h, h ∈ l ↔ Avail r.ctrl.msgs.first h ∧ t - a ≤ h ∧ h ≤ t) ∧
          (if 2 ≤ l.length then ∀ i, (∀ p ∈ r.ctrl.msgs.first, p.2.masked i = false) →
              D.data i = (l.map fun h => (convertedField mv f ((fieldAt r.ctrl.msgs.first h).getD Arr.zeros)).data i *
                .fin (endWeight (t - a) t h)).sum / .fin ((l.map (endWeight (t - a) t)).sum)
           else ∀ i, D.data i = .nan) ∧
          (∀ i, D.masked i = false) ∧
          files[j]? = some (pcrName r.namePrefix r.fmap r.ext (j + 1), fun c => shown r.mask r.mvClone
            (finalCell r.height (cellOf r.table r.mvOut (Spec.cutField (cuts r) D) c) c) c) := by
  set ag := (convertedCtrl mv f r.ctrl).aggregator a with hag
  set ms := convertedMsgs mv f r.ctrl.msgs.first with hms
  have hf1 : (convertedCtrl mv f r.ctrl).firstPart = ag.doManipulation ms :=
    firstPart_aggregated (c := convertedCtrl mv f r.ctrl) hagg ha hone
  obtain ⟨out, hout⟩ := half_succeeds ag ms htype hpos hst hh (by
    rw [hms]
    intro h
    exact hne (List.map_eq_nil_iff.1 h))
  have hout' := hout
  rw [doManipulation_avg ag ms htype] at hout'
  obtain ⟨-, fst, V, hfst, hV, ho⟩ := average_ok ag ms hpos out hout'
  have hb : ag.avgBounds = (r.ctrl.start - a, r.ctrl.end_ - a + 1) := by
    unfold avgBounds
    exact if_neg (by rintro (h | h); exact h0 h; cases h)
  rw [hb] at hV ho
  dsimp only at hV ho
  obtain ⟨files, hfiles, hlen, hget⟩ := files_of (r := r) hmv hconv hone hfit (hf1.trans (hout.trans (congrArg _ ho)))
    (by
      rw [List.pairwise_map]
      refine (rangeList_pairwise hpos).imp ?_
      intro x y hxy
      change x + a < y + a
      omega)
  refine ⟨files, hfiles, ?_, ?_⟩
  · intro j
    rw [hlen]
    constructor
    · intro h
      have := rangeList_length_le hpos j h
      change r.ctrl.start - a + j * a < _ at this
      omega
    · intro h
      have := rangeList_get (a := r.ctrl.start - a) (b := r.ctrl.end_ - a + 1) (s := a) hpos j (by omega)
      exact (List.getElem?_eq_some_iff.1 this).1
  · intro j t ht hle
    have hj : (rangeList (r.ctrl.start - a) (r.ctrl.end_ - a + 1) a)[j]? = some (t - a) := by
      rw [rangeList_get hpos j (by omega)]
      congr 1
      omega
    have hfile := hget j (t - a) hj
    have hval := hV _ (List.mem_of_getElem? hj)
    have hav : availIn ms (t - a) a = availIn r.ctrl.msgs.first (t - a) a := availIn_converted mv f _ _ _
    refine ⟨availIn r.ctrl.msgs.first (t - a) a, V (t - a), ?_, ?_, ?_, ?_, hfile⟩
    · exact (rangeList_pairwise (by omega)).filter _
    · intro h
      unfold availIn
      rw [List.mem_filter, mem_rangeList (by omega), decide_eq_true_iff]
      constructor
      · rintro ⟨⟨j, h1, h2⟩, h3⟩
        exact ⟨h3, by omega, by omega⟩
      · rintro ⟨h3, h1, h2⟩
        exact ⟨⟨(h - (t - a)).toNat, by omega, by omega⟩, h3⟩
    · split
      · rename_i h2
        intro i hmask
        obtain ⟨first', M, hf', hM, hD⟩ := C11_half_weights ag ms out htype hpos rfl hh hout i
          (by
            intro p hp
            obtain ⟨q, hq, rfl⟩ := List.mem_map.1 hp
            exact hmask q hq)
          (t - a) ⟨j, by
            unfold firstEnd
            change t - a = (if r.ctrl.start = 0 then a else r.ctrl.start) - a + j * a
            rw [if_neg h0]
            omega, by change t - a + a ≤ r.ctrl.end_; omega⟩
          (by change 2 ≤ (availIn ms (t - a) a).length; rw [hav]; exact h2)
        have hMV : M = V (t - a) := by
          have e0 : fst = first' := Option.some.inj (hfst.symm.trans hf')
          subst e0
          rw [ho] at hM
          have := get?_of_range (avgKey_inj a fst.1.resolution fst.1.level) (V := V) (List.mem_of_getElem? hj)
          have e := hM.symm.trans this
          injection e
        rw [← hMV, hD]
        change ((availIn ms (t - a) a).map fun h => ((fieldAt ms h).getD Arr.zeros).data i *
            .fin (halfWeight (t - a) a ((availIn ms (t - a) a).length - 1) h)).sum
          / .fin (((availIn ms (t - a) a).map (halfWeight (t - a) a ((availIn ms (t - a) a).length - 1))).sum) = _
        rw [hav]
        set L := availIn r.ctrl.msgs.first (t - a) a with hL
        have hc : (a : ℚ) / ((L.length : ℚ) - 1) ≠ 0 := by
          have h2' : (2 : ℚ) ≤ (L.length : ℚ) := by exact_mod_cast h2
          have : (a : ℚ) ≠ 0 := by exact_mod_cast hpos.ne'
          exact div_ne_zero this (by linarith)
        have hw : ∀ h, halfWeight (t - a) a ((L.length : ℚ) - 1) h =
            (a : ℚ) / ((L.length : ℚ) - 1) * endWeight (t - a) t h := by
          intro h
          unfold halfWeight endWeight
          rw [show t - a + a = t by ring]
          split <;> ring
        have hfun : halfWeight (t - a) a ((L.length : ℚ) - 1) = fun h =>
            (a : ℚ) / ((L.length : ℚ) - 1) * endWeight (t - a) t h := funext hw
        rw [hfun]
        rw [weights_scaled L _ _ _ hc]
        congr 2
        refine List.map_congr_left fun h hh' => ?_
        congr 1
        rw [hms, fieldAt_converted]
        have hA : Avail r.ctrl.msgs.first h := by
          have := (List.mem_filter.1 hh').2
          exact of_decide_eq_true this
        obtain ⟨v, hv⟩ := Option.isSome_iff_exists.1 ((avail_iff _ _).1 hA)
        rw [hv]
        rfl
      · rename_i h2
        intro i
        unfold avgVal avgSums at hval
        have hh' : ag.halfweights = true := hh
        simp only [hh', if_true] at hval
        rw [pyRange_pos (by omega : (0 : Int) < 1), ok_bind] at hval
        have hfilt : (rangeList (t - a) (t - a + ag.aggrStep + 1) 1).filter (fun x => decide (x ∈ Dict.keys (vOrd ms)))
            = availIn r.ctrl.msgs.first (t - a) a := by
          rw [← hav]
          unfold availIn
          congr 1
          funext x
          exact decide_eq_decide.2 (mem_keys_vOrd ms x)
        rw [hfilt, if_neg (by omega)] at hval
        injection hval with hval
        rw [← hval]
        rfl
    · intro i
      unfold avgVal at hval
      cases hs : avgSums ag (vOrd ms) (t - a) with
      | error e => rw [hs] at hval; cases hval
      | ok q =>
        rw [hs] at hval
        injection hval with hval
        rw [← hval]
        rfl

/-! ## On a GRIB file -/

/-- **C160** on an indexed file (compare C125). -/
theorem file_instantaneous_run (ne : NumExpr) (x : FileIn n k) (f : Num → Num) (mv : ℚ) (hidx : x.indexable = true)
    (hup : x.sel.shortName.map Char.toUpper ≠ x.sel.shortName) (ao : AggrOpts) (hagg : x.aggr = some ao)
    (hty : ao.type = "instantaneous") (a : Int) (ha : ao.step = a) (hpos : 0 < a)
    (hinst : ∀ m ∈ x.file, named x.sel m = true → m.stepType ≠ "accum".toList ∧ m.stepType ≠ "avg".toList)
    (E : Int) (hE : LastStep x.file x.sel E) (hreg : StepsDiffer x.file x.sel) (start hi : Int)
    (hst : start = x.tstart.getD 0) (hhi : hi = windowEnd x.tend E) (sel : List (GMsg (Arr n)))
    (hsel : sel = taken x.file x.sel (max 0 (start - a)) hi)
    (nj : Int) (hnj : ∀ m ∈ sel, m.nj = nj) (hdiff : (sel.map GMsg.endStep).Nodup)
    (hmv : ∀ m ∈ sel, m.missingValue = .fin mv) (hdate : ∀ m ∈ sel, (reference m).isSome = true)
    (hconv : Means ne x.conversion f) (hfit : Fits x.table n)
    (hex : ∃ m ∈ sel, hi ≤ m.endStep) (first : Int) (hfirst : first = extractFirst start a) :
    ∃ files, x.pcraster ne = .ok files ∧
      (∀ j : Nat, j < files.length ↔ first + j * a ≤ hi) ∧
      ∀ (j : Nat) t, t = first + j * a → t ≤ hi →
        ∃ D : Arr n, (∀ i, D.masked i = false) ∧
          (if t = 0 ∧ (∀ m ∈ sel, m.endStep ≠ 0) then ∀ i, D.data i = 0
           else ∃ m ∈ sel, t ≤ m.endStep ∧ (∀ m' ∈ sel, t ≤ m'.endStep → m.endStep ≤ m'.endStep) ∧
             ∀ i, D.data i = (convertedField mv f m.values).data i) ∧
          files[j]? = some (pcrName x.namePrefix x.fmap x.ext (j + 1), fun c => shown x.mask x.mvClone
            (finalCell x.height (cellOf x.table x.mvOut
              (Spec.cutField (x.conversion.isSome && x.cutOff) D) c) c) c) := by
  subst hsel
  have hne : taken x.file x.sel (max 0 (start - a)) hi ≠ [] := by
    obtain ⟨m, hm, -⟩ := hex
    intro h
    rw [h] at hm
    cases hm
  obtain ⟨info, t2, msgs, ms, hset, hend, hone, hmvs, hperm, hmap⟩ := file_settings x hidx hup E hE
    (max 0 (start - a)) hi (fun step h => by
      rw [hagg, hst, hhi, ← ha]
      exact window_aggr x.tstart x.tend ao.step step E (h hreg)) hne nj hnj (differ_of_ends hdiff) mv hmv hdate
  have hr := range_eq x info
  rw [hend] at hr
  have hrs : (x.assemble info t2 msgs).ctrl.start = start := by
    rw [hst]; exact congrArg Prod.fst hr
  have hre : (x.assemble info t2 msgs).ctrl.end_ = hi := by
    rw [hhi]; exact congrArg Prod.snd hr
  have hav := avail_file hperm hmap
  obtain ⟨mt, hmt, hmn, hpt⟩ := paramType_mem x hidx E hE
  have hty' : ∀ t : String, mt.stepType ≠ t.toList → x.paramType ≠ t := by
    intro t ht hc
    rw [hpt] at hc
    exact ht (by rw [← hc, String.toList_ofList])
  obtain ⟨files, h1, h2, h3⟩ := instantaneous_run ne (x.assemble info t2 msgs) f mv hmvs hconv hone hfit
    (by unfold FileIn.assemble; rw [hagg]; rfl) a (by unfold FileIn.assemble; rw [hagg, ← ha]; rfl) hpos
    (by unfold FileIn.assemble; rw [hagg, ← hty]; rfl)
    (hty' _ (hinst mt hmt hmn).1) (hty' _ (hinst mt hmt hmn).2)
    (by
      rw [hre]
      obtain ⟨m, hm, hme⟩ := hex
      exact ⟨m.endStep, (hav _).2 ⟨m, hm, rfl⟩, hme⟩) first (by rw [hrs]; exact hfirst)
  rw [hre] at h2 h3
  refine ⟨files, ?_, h2, ?_⟩
  · unfold FileIn.pcraster
    rw [hset]
    exact h1
  · intro j t ht hle
    obtain ⟨D, g0, g1, g2⟩ := h3 j t ht hle
    refine ⟨D, g0, ?_, g2⟩
    have hz : (t = 0 ∧ ¬ Avail msgs.first 0) ↔
        (t = 0 ∧ ∀ m ∈ taken x.file x.sel (max 0 (start - a)) hi, m.endStep ≠ 0) := by
      rw [hav]
      constructor
      · rintro ⟨e, h⟩; exact ⟨e, fun m hm h' => h ⟨m, hm, h'⟩⟩
      · rintro ⟨e, h⟩; exact ⟨e, fun ⟨m, hm, h'⟩ => h m hm h'⟩
    split
    · rename_i hc
      rw [if_pos (show t = 0 ∧ ¬ Avail (x.assemble info t2 msgs).ctrl.msgs.first 0 from hz.2 hc)] at g1
      exact g1
    · rename_i hc
      rw [if_neg (show ¬ (t = 0 ∧ ¬ Avail (x.assemble info t2 msgs).ctrl.msgs.first 0) from fun h => hc (hz.1 h))] at g1
      obtain ⟨v, ⟨u, ⟨hu1, hu2, hu3⟩, hu4⟩, hv⟩ := g1
      obtain ⟨m, p1, p2, p3⟩ := fieldAt_file hperm hmap u _ hu4
      refine ⟨m, p1, p2 ▸ hu2, fun m' hm' hle' => ?_, fun i => by rw [hv i, p3]⟩
      rw [p2]
      exact hu3 _ ((hav _).2 ⟨m', hm', rfl⟩) hle'

/-- **C161** on an indexed file (compare C125). -/
theorem file_half_weight_run (ne : NumExpr) (x : FileIn n k) (f : Num → Num) (mv : ℚ) (hidx : x.indexable = true)
    (hup : x.sel.shortName.map Char.toUpper ≠ x.sel.shortName) (ao : AggrOpts) (hagg : x.aggr = some ao)
    (hty : ao.type = "average") (hh : ao.halfweights = true) (a : Int) (ha : ao.step = a) (hpos : 0 < a)
    (hinst : ∀ m ∈ x.file, named x.sel m = true → m.stepType ≠ "accum".toList)
    (E : Int) (hE : LastStep x.file x.sel E) (hreg : StepsDiffer x.file x.sel) (start hi : Int)
    (hst : start = x.tstart.getD 0) (h0 : start ≠ 0) (hhi : hi = windowEnd x.tend E) (sel : List (GMsg (Arr n)))
    (hsel : sel = taken x.file x.sel (max 0 (start - a)) hi) (hne : sel ≠ [])
    (nj : Int) (hnj : ∀ m ∈ sel, m.nj = nj) (hdiff : (sel.map GMsg.endStep).Nodup)
    (hmv : ∀ m ∈ sel, m.missingValue = .fin mv) (hdate : ∀ m ∈ sel, (reference m).isSome = true)
    (hconv : Means ne x.conversion f) (hfit : Fits x.table n) :
    ∃ files, x.pcraster ne = .ok files ∧
      (∀ j : Nat, j < files.length ↔ start + j * a ≤ hi) ∧
      ∀ (j : Nat) t, t = start + j * a → t ≤ hi →
        ∃ (l : List (GMsg (Arr n))) (D : Arr n), l.Pairwise (fun p q => p.endStep < q.endStep) ∧
          (∀ m, m ∈ l ↔ m ∈ sel ∧ t - a ≤ m.endStep ∧ m.endStep ≤ t) ∧
          (if 2 ≤ l.length then ∀ i, (∀ m ∈ sel, m.values.masked i = false) →
              D.data i = (l.map fun m => (convertedField mv f m.values).data i *
                .fin (endWeight (t - a) t m.endStep)).sum / .fin ((l.map fun m => endWeight (t - a) t m.endStep).sum)
           else ∀ i, D.data i = .nan) ∧
          (∀ i, D.masked i = false) ∧
          files[j]? = some (pcrName x.namePrefix x.fmap x.ext (j + 1), fun c => shown x.mask x.mvClone
            (finalCell x.height (cellOf x.table x.mvOut
              (Spec.cutField (x.conversion.isSome && x.cutOff) D) c) c) c) := by
  subst hsel
  obtain ⟨info, t2, msgs, ms, hset, hend, hone, hmvs, hperm, hmap⟩ := file_settings x hidx hup E hE
    (max 0 (start - a)) hi (fun step h => by
      rw [hagg, hst, hhi, ← ha]
      exact window_aggr x.tstart x.tend ao.step step E (h hreg)) hne nj hnj (differ_of_ends hdiff) mv hmv hdate
  have hr := range_eq x info
  rw [hend] at hr
  have hrs : (x.assemble info t2 msgs).ctrl.start = start := by
    rw [hst]; exact congrArg Prod.fst hr
  have hre : (x.assemble info t2 msgs).ctrl.end_ = hi := by
    rw [hhi]; exact congrArg Prod.snd hr
  have hav := avail_file hperm hmap
  obtain ⟨mt, hmt, hmn, hpt⟩ := paramType_mem x hidx E hE
  obtain ⟨files, h1, h2, h3⟩ := half_weight_run ne (x.assemble info t2 msgs) f mv hmvs hconv hone hfit
    (by unfold FileIn.assemble; rw [hagg]; rfl) a (by unfold FileIn.assemble; rw [hagg, ← ha]; rfl) hpos
    (by unfold FileIn.assemble; rw [hagg, ← hty]; rfl)
    (by
      change x.paramType ≠ "accum"
      rw [hpt]
      intro hc
      exact hinst mt hmt hmn (by rw [← hc, String.toList_ofList]))
    (by unfold FileIn.assemble; rw [hagg, ← hh]; rfl) (by rw [hrs]; exact h0)
    (by
      change msgs.first ≠ []
      intro h
      rw [h] at hmap
      have : ms = [] := List.map_eq_nil_iff.1 hmap.symm
      rw [this] at hperm
      exact hne hperm.symm.eq_nil)
  rw [hrs, hre] at h2 h3
  refine ⟨files, ?_, h2, ?_⟩
  · unfold FileIn.pcraster
    rw [hset]
    exact h1
  · intro j t ht hle
    obtain ⟨l, D, g1, g2, g3, g4, g5⟩ := h3 j t ht hle
    change ∀ h, h ∈ l ↔ Avail msgs.first h ∧ _ at g2
    set sel := taken x.file x.sel (max 0 (start - a)) hi with hselE
    have uniq : ∀ m ∈ sel, ∀ m' ∈ sel, m.endStep = m'.endStep → m = m' := fun m hm m' hm' he =>
      List.inj_on_of_nodup_map hdiff hm hm' he
    have hpick : ∀ h, h ∈ l → ∃ m, m ∈ sel ∧ m.endStep = h ∧ fieldAt msgs.first h = some m.values := by
      intro h hl
      obtain ⟨v, hv⟩ := Option.isSome_iff_exists.1 ((avail_iff _ _).1 ((g2 h).1 hl).1)
      obtain ⟨m, p1, p2, p3⟩ := fieldAt_file hperm hmap h v hv
      exact ⟨m, p1, p2, by rw [hv, p3]⟩
    classical
    have : ∃ M : Int → GMsg (Arr n), ∀ h ∈ l, M h ∈ sel ∧ (M h).endStep = h ∧ fieldAt msgs.first h = some (M h).values := by
      refine ⟨fun h => if hc : h ∈ l then (hpick h hc).choose else mt, fun h hl => ?_⟩
      dsimp only
      rw [dif_pos hl]
      exact (hpick h hl).choose_spec
    obtain ⟨M, hM⟩ := this
    have hends : (l.map M).map GMsg.endStep = l := by
      rw [List.map_map]
      conv_rhs => rw [← List.map_id l]
      exact List.map_congr_left fun h hl => (hM h hl).2.1
    refine ⟨l.map M, D, ?_, ?_, ?_, g4, g5⟩
    · rw [← hends] at g1
      exact List.pairwise_map.1 g1
    · intro m
      constructor
      · intro hm
        obtain ⟨h, hl, rfl⟩ := List.mem_map.1 hm
        obtain ⟨q1, q2, -⟩ := hM h hl
        rw [q2]
        exact ⟨q1, ((g2 h).1 hl).2⟩
      · rintro ⟨hm, hr⟩
        have hl : m.endStep ∈ l := (g2 _).2 ⟨(hav _).2 ⟨m, hm, rfl⟩, hr⟩
        obtain ⟨q1, q2, -⟩ := hM _ hl
        rw [uniq m hm _ q1 q2.symm]
        exact List.mem_map_of_mem hl
    · rw [List.length_map]
      split
      · rename_i hc
        rw [if_pos hc] at g3
        intro i hmask
        rw [g3 i (by
          intro p hp
          obtain ⟨m, hm, -, hv⟩ := entry_of hperm hmap p hp
          rw [← hv]
          exact hmask m hm)]
        congr 2
        · rw [List.map_map]
          refine List.map_congr_left fun h hl => ?_
          obtain ⟨-, q2, q3⟩ := hM h hl
          change _ = (convertedField mv f (M h).values).data i * Num.fin (endWeight (t - a) t (M h).endStep)
          rw [q2]
          change (convertedField mv f ((fieldAt msgs.first h).getD Arr.zeros)).data i * _ = _
          rw [q3]
          rfl
        · rw [List.map_map]
          congr 1
          refine List.map_congr_left fun h hl => ?_
          change _ = endWeight (t - a) t (M h).endStep
          rw [(hM h hl).2.1]
      · rename_i hc
        rw [if_neg hc] at g3
        exact g3

/-! ## As commands -/

/-- **C160** as a command (compare C145). -/
theorem command_instantaneous_run (ne : NumExpr) (s : Site n k) (items : List (Spec.Written × Str × JVal))
    (r : Spec.Request) (hcom : Spec.Command s items r) (hfmt : r.format = "pcraster".toList) (hpre : r.namePrefix ≠ [] ∧ r.namePrefix.head? ≠ some '/')
    (f : Num → Num) (mv : ℚ) (file : List (GMsg (Arr n))) (hfile : s.grib r.input = (file, true))
    (hup : r.shortName.map Char.toUpper ≠ r.shortName) (a : Int) (half forced : Bool)
    (hagg : r.aggr = some ⟨a, "instantaneous", half, forced⟩) (hpos : 0 < a)
    (p : SelPar) (hp : p = ⟨r.shortName, r.level, r.dataTime, r.dataDate, r.member⟩)
    (hinst : ∀ m ∈ file, Spec.named p m = true → m.stepType ≠ "accum".toList ∧ m.stepType ≠ "avg".toList)
    (E : Int) (hE : Spec.LastStep file p E) (hreg : Spec.StepsDiffer file p) (start hi : Int)
    (hst : start = r.tstart.getD 0) (hhi : hi = Spec.windowEnd r.tend E) (sel : List (GMsg (Arr n)))
    (hsel : sel = Spec.taken file p (max 0 (start - a)) hi)
    (nj : Int) (hnj : ∀ m ∈ sel, m.nj = nj) (hdiff : (sel.map GMsg.endStep).Nodup)
    (hmv : ∀ m ∈ sel, m.missingValue = .fin mv) (hdate : ∀ m ∈ sel, (Spec.reference m).isSome = true)
    (hconv : Means ne (r.conversion.map fun c => some c.1) f)
    (t : Table k) (ht : t = (s.tables r.mode r.latMap r.lonMap r.input).1) (hfit : Fits t n)
    (hex : ∃ m ∈ sel, hi ≤ m.endStep) (first : Int) (hfirst : first = extractFirst start a) :
    ∃ files, CommandRun.run ne s (Spec.argv items) = .ended (.ok 0) files ∧
      (∀ j : Nat, j < files.length ↔ first + j * a ≤ hi) ∧
      ∀ (j : Nat) u, u = first + j * a → u ≤ hi →
        ∃ D : Arr n, (∀ i, D.masked i = false) ∧
          (if u = 0 ∧ (∀ m ∈ sel, m.endStep ≠ 0) then ∀ i, D.data i = 0
           else ∃ m ∈ sel, u ≤ m.endStep ∧ (∀ m' ∈ sel, u ≤ m'.endStep → m.endStep ≤ m'.endStep) ∧
             ∀ i, D.data i = (convertedField mv f m.values).data i) ∧
          files[j]? = some (Spec.folder r.outDir ++ pcrName r.namePrefix r.fmap r.ext (j + 1), fun c =>
            shown (s.clone r.clone).1 (s.clone r.clone).2
              (finalCell (r.correction.map fun q => (s.heights q.1 q.2.1 q.2.2).1) (cellOf t (s.mvOf r.latMap)
                (Spec.cutField ((r.conversion.map Prod.snd).getD false) D) c) c) c) := by
  subst hp ht
  have e1 : (Spec.runOf s r).file = file := congrArg Prod.fst hfile
  have e2 : (Spec.runOf s r).indexable = true := congrArg Prod.snd hfile
  obtain ⟨files, h3, h4, h5⟩ := file_instantaneous_run ne (Spec.runOf s r) f mv e2 hup _ hagg rfl a rfl hpos
    (by rw [e1]; exact hinst)
    E (by rw [e1]; exact hE) (by rw [e1]; exact hreg) start hi
    hst hhi sel (by rw [e1]; exact hsel) nj hnj hdiff hmv hdate hconv hfit hex first hfirst
  refine ⟨(files.map fun p => (Spec.inFolder r.outDir p.1, p.2)), ?_, ?_, ?_⟩
  · rw [command_settings ne s items r hcom hfmt, h3]
  · intro j
    rw [List.length_map]; exact h4 j
  · intro j u hu hle
    obtain ⟨D, g1, g2, g5⟩ := h5 j u hu hle
    refine ⟨D, g1, g2, ?_⟩
    have hcut : ((Spec.runOf s r).conversion.isSome && (Spec.runOf s r).cutOff) = (r.conversion.map Prod.snd).getD false := by
      show ((r.conversion.map fun p => some p.1).isSome && (r.conversion.map Prod.snd).getD false) = _
      cases r.conversion <;> simp
    rw [List.getElem?_map, g5, hcut]
    show some (Spec.inFolder r.outDir (pcrName r.namePrefix r.fmap r.ext (j + 1)), _) = _
    rw [CommandRun.map_place _ _ _ _ _ hpre.1 hpre.2]
    rfl

/-- **C161** as a command (compare C145). -/
theorem command_half_weight_run (ne : NumExpr) (s : Site n k) (items : List (Spec.Written × Str × JVal))
    (r : Spec.Request) (hcom : Spec.Command s items r) (hfmt : r.format = "pcraster".toList) (hpre : r.namePrefix ≠ [] ∧ r.namePrefix.head? ≠ some '/')
    (f : Num → Num) (mv : ℚ) (file : List (GMsg (Arr n))) (hfile : s.grib r.input = (file, true))
    (hup : r.shortName.map Char.toUpper ≠ r.shortName) (a : Int) (forced : Bool)
    (hagg : r.aggr = some ⟨a, "average", true, forced⟩) (hpos : 0 < a)
    (p : SelPar) (hp : p = ⟨r.shortName, r.level, r.dataTime, r.dataDate, r.member⟩)
    (hinst : ∀ m ∈ file, Spec.named p m = true → m.stepType ≠ "accum".toList)
    (E : Int) (hE : Spec.LastStep file p E) (hreg : Spec.StepsDiffer file p) (start hi : Int)
    (hst : r.tstart = some start) (h0 : start ≠ 0) (hhi : hi = Spec.windowEnd r.tend E) (sel : List (GMsg (Arr n)))
    (hsel : sel = Spec.taken file p (max 0 (start - a)) hi) (hne : sel ≠ [])
    (nj : Int) (hnj : ∀ m ∈ sel, m.nj = nj) (hdiff : (sel.map GMsg.endStep).Nodup)
    (hmv : ∀ m ∈ sel, m.missingValue = .fin mv) (hdate : ∀ m ∈ sel, (Spec.reference m).isSome = true)
    (hconv : Means ne (r.conversion.map fun c => some c.1) f)
    (t : Table k) (ht : t = (s.tables r.mode r.latMap r.lonMap r.input).1) (hfit : Fits t n) :
    ∃ files, CommandRun.run ne s (Spec.argv items) = .ended (.ok 0) files ∧
      (∀ j : Nat, j < files.length ↔ start + j * a ≤ hi) ∧
      ∀ (j : Nat) u, u = start + j * a → u ≤ hi →
        ∃ (l : List (GMsg (Arr n))) (D : Arr n), l.Pairwise (fun p q => p.endStep < q.endStep) ∧
          (∀ m, m ∈ l ↔ m ∈ sel ∧ u - a ≤ m.endStep ∧ m.endStep ≤ u) ∧
          (if 2 ≤ l.length then ∀ i, (∀ m ∈ sel, m.values.masked i = false) →
              D.data i = (l.map fun m => (convertedField mv f m.values).data i *
                .fin (endWeight (u - a) u m.endStep)).sum / .fin ((l.map fun m => endWeight (u - a) u m.endStep).sum)
           else ∀ i, D.data i = .nan) ∧
          (∀ i, D.masked i = false) ∧
          files[j]? = some (Spec.folder r.outDir ++ pcrName r.namePrefix r.fmap r.ext (j + 1), fun c =>
            shown (s.clone r.clone).1 (s.clone r.clone).2
              (finalCell (r.correction.map fun q => (s.heights q.1 q.2.1 q.2.2).1) (cellOf t (s.mvOf r.latMap)
                (Spec.cutField ((r.conversion.map Prod.snd).getD false) D) c) c) c) := by
  subst hp ht
  have e1 : (Spec.runOf s r).file = file := congrArg Prod.fst hfile
  have e2 : (Spec.runOf s r).indexable = true := congrArg Prod.snd hfile
  obtain ⟨files, h3, h4, h5⟩ := file_half_weight_run ne (Spec.runOf s r) f mv e2 hup _ hagg rfl rfl a rfl hpos
    (by rw [e1]; exact hinst)
    E (by rw [e1]; exact hE) (by rw [e1]; exact hreg) start hi
    (show start = r.tstart.getD 0 by rw [hst]; rfl) h0 hhi sel (by rw [e1]; exact hsel) hne nj hnj hdiff hmv hdate hconv hfit
  refine ⟨(files.map fun p => (Spec.inFolder r.outDir p.1, p.2)), ?_, ?_, ?_⟩
  · rw [command_settings ne s items r hcom hfmt, h3]
  · intro j
    rw [List.length_map]; exact h4 j
  · intro j u hu hle
    obtain ⟨l, D, g1, g2, g3, g4, g5⟩ := h5 j u hu hle
    refine ⟨l, D, g1, g2, g3, g4, ?_⟩
    have hcut : ((Spec.runOf s r).conversion.isSome && (Spec.runOf s r).cutOff) = (r.conversion.map Prod.snd).getD false := by
      show ((r.conversion.map fun p => some p.1).isSome && (r.conversion.map Prod.snd).getD false) = _
      cases r.conversion <;> simp
    rw [List.getElem?_map, g5, hcut]
    show some (Spec.inFolder r.outDir (pcrName r.namePrefix r.fmap r.ext (j + 1)), _) = _
    rw [CommandRun.map_place _ _ _ _ _ hpre.1 hpre.2]
    rfl

/-! ## Concrete runs -/

namespace Demo

/-- the messages of `rain`, valid at their end. -/
def values : List (GMsg (Arr 2)) := rain.map fun m => { m with stepType := "instant".toList }

/-- a run on them from 12 to 18. -/
def valuesIn (ao : AggrOpts) : FileIn 2 1 := { fileIn (some 12) (some 18) (some ao) true with file := values }

theorem values_last : LastStep values (valuesIn ⟨6, "average", true, false⟩).sel 18 := by
  constructor
  · exact ⟨{ fmsg "tp" 0 18 7 9 with stepType := "instant".toList }, List.mem_map.2 ⟨fmsg "tp" 0 18 7 9, by unfold rain; simp, rfl⟩, by decide +kernel, rfl⟩
  · decide +kernel

theorem values_steps : StepsDiffer values (valuesIn ⟨6, "average", true, false⟩).sel := by
  refine ⟨by decide +kernel, ?_⟩
  intro m hm
  have := congrArg List.length hm
  revert this
  have : (values.filter (named (valuesIn ⟨6, "average", true, false⟩).sel)).length = 3 := by decide +kernel
  rw [this]
  intro h
  cases h

/-- C160: three maps, the first one step before the start. -/
example : ∃ files, (valuesIn ⟨6, "instantaneous", false, false⟩).pcraster (fun _ => none) = .ok files ∧ files.length = 3 := by
  obtain ⟨files, h1, h2, -⟩ := file_instantaneous_run (fun _ => none) (valuesIn ⟨6, "instantaneous", false, false⟩) id (-9999)
    rfl (by decide +kernel) _ rfl rfl 6 rfl (by decide) (by decide +kernel) 18 values_last values_steps 12 18 rfl rfl _ rfl 10
    (by decide +kernel) (by decide +kernel) (by decide +kernel) (by decide +kernel) (.inl ⟨.inl rfl, rfl⟩)
    (fun _ => Nat.le_succ 1) (by decide +kernel) 6 (by decide)
  refine ⟨files, h1, ?_⟩
  have a1 := (h2 2).2 (by decide)
  have a2 := mt (h2 3).1 (by decide)
  omega

example : (valuesIn ⟨6, "instantaneous", false, false⟩).pcraster (fun _ => none) =
    .ok [(pcrName "tp".toList 1 1 1, fun _ => .fin 2), (pcrName "tp".toList 1 1 2, fun _ => .fin 5),
      (pcrName "tp".toList 1 1 3, fun _ => .fin 9)] := by decide +kernel

/-- C161. -/
example : ∃ files, (valuesIn ⟨6, "average", true, false⟩).pcraster (fun _ => none) = .ok files ∧ files.length = 2 := by
  obtain ⟨files, h1, h2, -⟩ := file_half_weight_run (fun _ => none) (valuesIn ⟨6, "average", true, false⟩) id (-9999)
    rfl (by decide +kernel) _ rfl rfl rfl 6 rfl (by decide) (by decide +kernel) 18 values_last values_steps 12 18 rfl (by decide) rfl _ rfl
    (fun h => absurd (congrArg List.length h) (by decide +kernel)) 10
    (by decide +kernel) (by decide +kernel) (by decide +kernel) (by decide +kernel) (.inl ⟨.inl rfl, rfl⟩)
    (fun _ => Nat.le_succ 1)
  refine ⟨files, h1, ?_⟩
  have a1 := (h2 1).2 (by decide)
  have a2 := mt (h2 2).1 (by decide)
  omega

example : (valuesIn ⟨6, "average", true, false⟩).pcraster (fun _ => none) =
    .ok [(pcrName "tp".toList 1 1 1, fun _ => .fin (7 / 2)), (pcrName "tp".toList 1 1 2, fun _ => .fin 7)] := by decide +kernel

/-- the command of `rain_command` with another aggregation, on these messages. -/
def valuesSite (ag : JAggr × JVal) : Site 2 1 :=
  { rainSite with commands := fun _ => { rainCmd with aggr := some ag }, grib := fun _ => (values, true) }

/-- the request. -/
def valuesReq (ao : AggrOpts) : Spec.Request := { rainReq with aggr := some ao }

theorem values_command (ag : JAggr × JVal) (ao : AggrOpts) (h : Spec.AggrIn (some ag) (some ao)) :
    Spec.Command (valuesSite ag) rainItems (valuesReq ao) := by
  obtain ⟨cmd, h1, h2, h3⟩ := rain_command.file
  exact { rain_command with file := ⟨cmd, h1, h2, { h3 with aggr := h }⟩, acceptable := { rain_command.acceptable with } }

/-- C160 and C161 as commands. -/
example : (∃ files, CommandRun.run (fun _ => none) (valuesSite (⟨.int 6, .str "instantaneous".toList, none⟩, .null))
      (Spec.argv rainItems) = .ended (.ok 0) files ∧ files.length = 3) ∧
    ∃ files, CommandRun.run (fun _ => none) (valuesSite (⟨.int 6, .str "average".toList, none⟩, .bool true))
      (Spec.argv rainItems) = .ended (.ok 0) files ∧ files.length = 2 := by
  constructor
  · obtain ⟨files, h1, h2, -⟩ := command_instantaneous_run (fun _ => none) _ rainItems
      (valuesReq ⟨6, "instantaneous", false, false⟩)
      (values_command (⟨.int 6, .str "instantaneous".toList, none⟩, .null) _
        (Or.inr ⟨_, _, 6, "instantaneous", false, rfl, Or.inl rfl, by decide, rfl, by decide, rfl, Or.inr (Or.inl ⟨rfl, rfl⟩)⟩)) rfl
      (by decide) id (-9999) values rfl (by decide +kernel) 6 false false rfl (by decide) _ rfl (by decide +kernel) 18
      values_last values_steps 12 18 rfl rfl _ rfl 10
      (by decide +kernel) (by decide +kernel) (by decide +kernel) (by decide +kernel) (.inl ⟨.inr rfl, rfl⟩) _ rfl (fun _ => Nat.le_succ 1)
      (by decide +kernel) 6 (by decide)
    refine ⟨files, h1, ?_⟩
    have a1 := (h2 2).2 (by decide)
    have a2 := mt (h2 3).1 (by decide)
    omega
  · obtain ⟨files, h1, h2, -⟩ := command_half_weight_run (fun _ => none) _ rainItems
      (valuesReq ⟨6, "average", true, false⟩)
      (values_command (⟨.int 6, .str "average".toList, none⟩, .bool true) _
        (Or.inr ⟨_, _, 6, "average", false, rfl, Or.inl rfl, by decide, rfl, by decide, rfl, Or.inr (Or.inl ⟨rfl, rfl⟩)⟩)) rfl
      (by decide) id (-9999) values rfl (by decide +kernel) 6 false rfl (by decide) _ rfl (by decide +kernel) 18
      values_last values_steps 12 18 rfl (by decide) rfl _ rfl (fun h => absurd (congrArg List.length h) (by decide +kernel)) 10
      (by decide +kernel) (by decide +kernel) (by decide +kernel) (by decide +kernel) (.inl ⟨.inr rfl, rfl⟩) _ rfl (fun _ => Nat.le_succ 1)
    refine ⟨files, h1, ?_⟩
    have a1 := (h2 1).2 (by decide)
    have a2 := mt (h2 2).1 (by decide)
    omega

end Demo

end PyG2P
