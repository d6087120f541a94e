import Verif.Props.TwoFiles
import Verif.Props.NetcdfCommand

/-! # One file with a change of grid -/

namespace PyG2P
open Spec TableApply Converter Aggregator Reader
variable {n m k : Nat} {α : Type}

/-! ## The order of the messages taken -/

/-- Of the three names only the first leads to a match: the positions found are in the order of the file. -/
theorem positions_in_order (file : List (GMsg α)) (Q : Nat → Bool) (P : GMsg α → Bool) (s : Str) (names : List Str)
    (hs : s ∉ names) (hQ : ∀ i w, file[i]? = some w → Q i = true → w.shortName = s) :
    (((s :: names).flatMap fun v => (List.range file.length).filter fun i =>
      match file[i]? with
      | some w => decide (w.shortName = v) && P w
      | none => false).filter Q).Pairwise (· < ·) := by
  rw [List.flatMap_cons, List.filter_append]
  have h0 : ((names.flatMap fun v => (List.range file.length).filter fun i =>
      match file[i]? with
      | some w => decide (w.shortName = v) && P w
      | none => false).filter Q) = [] := by
    rw [List.filter_eq_nil_iff]
    intro i hi hq
    obtain ⟨v, hv, hi⟩ := List.mem_flatMap.1 hi
    have hi := (List.mem_filter.1 hi).2
    cases hw : file[i]? with
    | none => rw [hw] at hi; cases hi
    | some w =>
      rw [hw] at hi
      have hvs : w.shortName = v := of_decide_eq_true (Bool.and_eq_true _ _ ▸ hi).1
      exact hs (hQ i w hw hq ▸ hvs ▸ hv)
  rw [h0, List.append_nil]
  exact (List.pairwise_lt_range.filter _).filter _

theorem scan_order (file : List (GMsg α)) (r r' : Reader) (b : Bool) (hsrc : r.src = .index b) (kw : Kwargs)
    (s : Str) (names : List Str) (c : Cond) (hc : Dict.get? kw "shortName".toList = some c)
    (hn : shortNames c = s :: names) (hs : s ∉ names)
    (hQ : ∀ w ∈ file, find w kw = true → w.shortName = s) (g : List (Nat × Nat)) (h : scan file r kw = (.ok g, r')) :
    (g.map (·.2)).Pairwise (· < ·) := by
  unfold scan at h
  rw [hc] at h
  dsimp only at h
  have h := congrArg Prod.fst h
  dsimp only at h
  rw [← Except.ok.inj h, scanLoop_pos, hn, hsrc]
  unfold visited
  refine positions_in_order file _ _ s names hs fun i w hw hq => ?_
  unfold matchAt at hq
  rw [hw] at hq
  exact hQ w (List.mem_of_getElem? hw) hq

/-- The messages at positions found in order. -/
theorem selected_eq (file : List (GMsg α)) (g : List (Nat × Nat)) (q : GMsg α → Bool)
    (hs : (g.map (·.2)).Pairwise (· < ·))
    (h : ∀ i, i ∈ g.map (·.2) ↔ ∃ w, file[i]? = some w ∧ q w = true) :
    (msgsOf file g).map (·.2) = file.filter q := by
  rw [msgsOf_map, filter_positions]
  congr 1
  refine List.Perm.eq_of_pairwise (le := (· ≤ ·)) (fun a b _ _ h1 h2 => le_antisymm h1 h2) (hs.imp le_of_lt)
    ((List.pairwise_lt_range.filter _).imp le_of_lt) ?_
  rw [List.perm_ext_iff_of_nodup (hs.imp ne_of_lt) (List.nodup_range.filter _)]
  intro i
  rw [h, List.mem_filter, List.mem_range]
  constructor
  · rintro ⟨w, h1, h2⟩
    have hl : i < file.length := by
      by_contra hl; rw [List.getElem?_eq_none (by omega)] at h1; cases h1
    refine ⟨hl, ?_⟩
    rw [h1]
    exact h2
  · rintro ⟨hl, h2⟩
    cases hw : file[i]? with
    | none => rw [hw] at h2; cases h2
    | some w => rw [hw] at h2; exact ⟨w, rfl, h2⟩

theorem getGids_order (file : List (GMsg α)) (r : Reader) (b : Bool) (hsrc : r.src = .index b) (p : SelPar)
    (lo hi : Int) (hup : p.shortName.map Char.toUpper ≠ p.shortName)
    (hsame : ∀ w ∈ file, asksFor p w = true → w.shortName = p.shortName) :
    ∃ g r', getGids file r (selectCmd p lo hi) = (.ok g, r') ∧
      (msgsOf file g).map (·.2) = taken file p lo hi ∧ ∀ q ∈ g, ∃ w, file[q.2]? = some w := by
  have hnd : (shortNames (Cond.mem [.str p.shortName, .str (Str.upper p.shortName),
      .str (p.shortName ++ "var".toList)])).Nodup := by
    change [p.shortName, p.shortName.map Char.toUpper, p.shortName ++ "var".toList].Nodup
    have hl : ∀ t : Str, t.length = p.shortName.length → t ≠ p.shortName ++ "var".toList := by
      intro t ht he
      rw [he, List.length_append] at ht
      have : ("var".toList).length = 3 := by decide
      omega
    simp only [List.nodup_cons, List.mem_cons, List.not_mem_nil, or_false, not_or, List.nodup_nil, and_true,
      not_false_eq_true]
    exact ⟨⟨fun h => hup h.symm, hl _ rfl⟩, hl _ (List.length_map _)⟩
  obtain ⟨g, r', hg, h1, h2, h3⟩ := C27_fallback_partial file r (selectCmd p lo hi) _ b (selectCmd_keys p lo hi)
    (selectCmd_name p lo hi) (fun p h => by cases h) hnd hsrc
  have hord : (g.map (·.2)).Pairwise (· < ·) := by
    have hnn : p.shortName ∉ [p.shortName.map Char.toUpper, p.shortName ++ "var".toList] := (List.nodup_cons.1 hnd).1
    unfold getGids at hg
    cases hsc : scan file r (selectCmd p lo hi) with
    | mk o r1 =>
      rw [hsc] at hg
      cases o with
      | error e => cases hg
      | ok g0 =>
        dsimp only at hg
        by_cases hz : g0.length = 0 ∧ excludesZero (selectCmd p lo hi) = true
        · rw [if_pos hz] at hg
          have hlo : lo ≠ hi := ((excludes_iff p lo hi).1 ((excludesZero_iff _ (selectCmd_keys p lo hi)).1 hz.2)).1
          refine scan_order file r1 r' b ?_ (relaxed (selectCmd p lo hi)) p.shortName _
            (Cond.mem [.str p.shortName, .str (Str.upper p.shortName), .str (p.shortName ++ "var".toList)]) ?_ rfl hnn ?_ g hg
          · have := scan_src file r (selectCmd p lo hi) b hsrc
            rwa [hsc] at this
          · unfold relaxed
            rw [Dict.get?_set, if_neg (by decide)]
            exact selectCmd_name p lo hi
          · intro w hw hf
            have := (relaxed_wanted p lo hi hlo w).1
              ((relaxed_iff w _ (selectCmd_keys p lo hi)).1 ((find_iff w _).1 hf))
            exact hsame w hw (Bool.and_eq_true _ _ ▸ this).1
        · rw [if_neg hz] at hg
          injection hg with e1 e2
          injection e1 with e1
          subst e1
          refine scan_order file r r1 b hsrc (selectCmd p lo hi) p.shortName _ _ (selectCmd_name p lo hi) rfl hnn ?_ g0 hsc
          intro w hw hf
          have := (wanted_iff p lo hi w).2 ((find_iff w _).1 hf)
          exact hsame w hw (Bool.and_eq_true _ _ ▸ this).1
  refine ⟨g, r', hg, ?_⟩
  have hno := no_match_iff file (selectCmd p lo hi) _ (wanted_iff p lo hi)
  unfold taken
  by_cases he : (file.filter fun m => asksFor p m && inWindow lo hi m).isEmpty = true
  · have hnone := hno.1 he
    rw [he, Bool.true_and]
    by_cases hz : lo ≠ hi ∧ 0 < lo
    · rw [if_pos (by simpa using hz)]
      obtain ⟨hn, hm⟩ := h2 hnone ((excludes_iff p lo hi).2 hz)
      refine ⟨selected_eq file g _ hord fun i => ?_, fun q hq => ?_⟩
      · rw [hm]
        simp only [relaxed_wanted p lo hi hz.1]
      · obtain ⟨m, h, -⟩ := (hm q.2).1 (List.mem_map_of_mem (f := fun q : Nat × Nat => q.2) hq)
        exact ⟨m, h⟩
    · rw [if_neg (by simpa using hz)]
      rw [h3 hnone (fun h => hz ((excludes_iff p lo hi).1 h)), List.isEmpty_iff.1 he]
      exact ⟨rfl, fun q hq => (by cases hq)⟩
  · rw [if_neg (by simp [he])]
    have hex : ∃ i, Spec.MatchesAt file (selectCmd p lo hi) i := by
      by_contra hc
      exact he (hno.2 fun i hi => hc ⟨i, hi⟩)
    have hs := h1 hex
    refine ⟨selected_eq file g _ hord fun i => ?_, fun q hq => ?_⟩
    · rw [hs.exact_]
      unfold Spec.MatchesAt
      simp only [wanted_iff]
    · obtain ⟨m, h, -⟩ := (hs.exact_ q.2).1 (List.mem_map_of_mem (f := fun q : Nat × Nat => q.2) hq)
      exact ⟨m, h⟩

/-! ## The two groups -/

/-- Messages of the second grid that differ are all kept, in order, after those of the first. -/
theorem selLoop_second (nj0 sg2 : Int) (ch : Str) (ms : List (Nat × GMsg α)) (hnj : ∀ p ∈ ms, p.2.nj ≠ nj0)
    (hdiff : ms.Pairwise fun x y => Spec.Differ x.2 y.2) (st0 : SelSt α) (h0 : st0.second = []) :
    let st := ms.foldl (selStep nj0 sg2 ch) st0
    (ms ≠ [] → st.grid2 = true) ∧ st.first = st0.first ∧
    st.second.map (fun p => (p.1.startStep, p.1.endStep, p.1.resolution, p.1.level, p.2)) =
      ms.map fun p => (p.2.startStep, p.2.endStep, p.2.nj, p.2.level, p.2.values) := by
  induction ms using List.reverseRecOn with
  | nil => exact ⟨fun h => absurd rfl h, rfl, by rw [List.foldl_nil, h0]; rfl⟩
  | append_singleton ms q ih =>
    rw [List.pairwise_append] at hdiff
    obtain ⟨i1, i2, i3⟩ := ih (fun p hp => hnj p (by simp [hp])) hdiff.1
    rw [List.foldl_append, List.foldl_cons, List.foldl_nil]
    set st := ms.foldl (selStep nj0 sg2 ch) st0 with hst
    have hq : q.2.nj ≠ nj0 := hnj q (by simp)
    have hnew : ∀ v : Int, (⟨q.2.startStep, q.2.endStep, q.2.nj, v, q.2.level⟩ : Step) ∉ Dict.keys st.second := by
      intro v hm
      obtain ⟨e, he, hk⟩ := List.mem_map.1 hm
      have : (e.1.startStep, e.1.endStep, e.1.resolution, e.1.level, e.2) ∈
          ms.map fun p => (p.2.startStep, p.2.endStep, p.2.nj, p.2.level, p.2.values) := by
        rw [← i3]
        exact List.mem_map.2 ⟨e, he, rfl⟩
      obtain ⟨p, hp, heq⟩ := List.mem_map.1 this
      rw [hk] at heq
      simp only [Prod.mk.injEq] at heq
      exact hdiff.2.2 p hp q (by simp) ⟨heq.1, heq.2.1, heq.2.2.1, heq.2.2.2.1⟩
    unfold selStep
    dsimp only
    rw [if_neg (by rw [if_pos hq]; decide), if_pos hq]
    dsimp only
    refine ⟨fun _ => if_pos hq, i2, ?_⟩
    rw [set_new _ _ _ (hnew _), List.map_append, List.map_append, i3]
    rfl

/-- The first of the smallest start steps. -/
theorem minKey_first (ks pre post : List Step) (c : Step) (hks : ks = pre ++ c :: post)
    (hpre : ∀ q ∈ pre, c.startStep < q.startStep) (hpost : ∀ q ∈ post, c.startStep ≤ q.startStep) :
    minKey ks = some c := by
  subst hks
  have hrest : ∀ l : List Step, (∀ q ∈ l, c.startStep ≤ q.startStep) →
      l.foldl (fun a b => if b.pyLt a then b else a) c = c := by
    intro l
    induction l with
    | nil => intro _; rfl
    | cons q l ih =>
      intro h
      rw [List.foldl_cons, if_neg]
      · exact ih fun x hx => h x (List.mem_cons_of_mem _ hx)
      · unfold Step.pyLt
        have := h q (List.mem_cons_self ..)
        simp only [decide_eq_true_eq]
        omega
  have hall : ∀ (l : List Step) (x : Step), c.startStep < x.startStep → (∀ q ∈ l, c.startStep < q.startStep) →
      (l ++ c :: post).foldl (fun a b => if b.pyLt a then b else a) x = c := by
    intro l
    induction l with
    | nil =>
      intro x hx _
      rw [List.nil_append, List.foldl_cons, if_pos (show c.pyLt x = true from decide_eq_true hx)]
      exact hrest post hpost
    | cons q l ih =>
      intro x hx h
      rw [List.cons_append, List.foldl_cons]
      refine ih _ ?_ fun y hy => h y (List.mem_cons_of_mem _ hy)
      split
      · exact h q (List.mem_cons_self ..)
      · exact hx
  cases pre with
  | nil => exact congrArg some (hrest post hpost)
  | cons q pre => exact congrArg some (hall pre q (hpre q (List.mem_cons_self ..)) fun x hx => hpre x (List.mem_cons_of_mem _ hx))

/-- The messages of the first grid, then those of others. -/
theorem group_two (sg sg2 : Int) (ch : Str) (ext : Option Nat) (p0 : Nat × GMsg α) (l1 l2 : List (Nat × GMsg α))
    (h1 : ∀ p ∈ p0 :: l1, p.2.nj = p0.2.nj) (h2 : ∀ p ∈ l2, p.2.nj ≠ p0.2.nj)
    (hd1 : (p0 :: l1).Pairwise fun x y => Spec.Differ x.2 y.2) (hd2 : l2.Pairwise fun x y => Spec.Differ x.2 y.2)
    (pre post : List (Nat × GMsg α)) (c : Nat × GMsg α) (hl2 : l2 = pre ++ c :: post)
    (hpre : ∀ q ∈ pre, c.2.startStep < q.2.startStep) (hpost : ∀ q ∈ post, c.2.startStep ≤ q.2.startStep) :
    let s := (group sg sg2 ch ext (p0 :: (l1 ++ l2))).1
    s.first.map (fun p => (p.1.startStep, p.1.endStep, p.1.resolution, p.1.level, p.2)) =
      (p0 :: l1).map (fun p => (p.2.startStep, p.2.endStep, p.2.nj, p.2.level, p.2.values)) ∧
    s.second.map (fun p => (p.1.startStep, p.1.endStep, p.1.resolution, p.1.level, p.2)) =
      l2.map (fun p => (p.2.startStep, p.2.endStep, p.2.nj, p.2.level, p.2.values)) ∧
    ∃ q, s.change = some q ∧ q.startStep = c.2.startStep ∧ q.endStep = c.2.endStep := by
  obtain ⟨g1, g2, g3⟩ := selLoop_one p0.2.nj sg2 ch (p0 :: l1) h1 hd1 sg ext
  obtain ⟨k1, k2, k3⟩ := selLoop_second p0.2.nj sg2 ch l2 h2 hd2
    ((p0 :: l1).foldl (selStep p0.2.nj sg2 ch) ⟨sg, false, ext, [], []⟩) g2
  rw [← List.foldl_append, List.cons_append] at k1 k2 k3
  rw [← k2] at g3
  have k1 := k1 (by rw [hl2]; simp)
  unfold group
  dsimp only
  refine ⟨g3, k3, ?_⟩
  rw [k1, if_pos rfl]
  set sec := (List.foldl (selStep p0.2.nj sg2 ch) ⟨sg, false, ext, [], []⟩ (p0 :: (l1 ++ l2))).second with hsec
  clear_value sec
  have hkeys : (Dict.keys sec).map (fun q => (q.startStep, q.endStep)) = l2.map fun p => (p.2.startStep, p.2.endStep) := by
    have := congrArg (List.map fun e : Int × Int × Int × Int × α => (e.1, e.2.1)) k3
    rw [List.map_map, List.map_map] at this
    unfold Dict.keys
    rw [List.map_map]
    exact this
  rw [hl2, List.map_append, List.map_cons] at hkeys
  obtain ⟨kp, kr, e1, e2, e3⟩ := List.map_eq_append_iff.1 hkeys
  obtain ⟨kc, kq, e4, e5, e6⟩ := List.map_eq_cons_iff.1 e3
  injection e5 with f1 f2
  refine ⟨kc, minKey_first _ kp kq kc (by rw [e1, e4]) ?_ ?_, f1, f2⟩
  · intro q hq
    have : (q.startStep, q.endStep) ∈ pre.map fun p => (p.2.startStep, p.2.endStep) := by
      rw [← e2]
      exact List.mem_map.2 ⟨q, hq, rfl⟩
    obtain ⟨p, hp, he⟩ := List.mem_map.1 this
    injection he with a1 a2
    have := hpre p hp
    omega
  · intro q hq
    have : (q.startStep, q.endStep) ∈ post.map fun p => (p.2.startStep, p.2.endStep) := by
      rw [← e6]
      exact List.mem_map.2 ⟨q, hq, rfl⟩
    obtain ⟨p, hp, he⟩ := List.mem_map.1 this
    injection he with a1 a2
    have := hpost p hp
    omega

/-! ## A file with a change of grid -/

namespace Spec

/-- The messages `sel` are first on one grid (`l1`), then on others (`l2`), and `c` is the first of `l2` with the
smallest start step. -/
structure GridChange (sel l1 l2 : List (GMsg α)) (c : GMsg α) : Prop where
  parts : sel = l1 ++ l2
  some_first : l1 ≠ []
  grids : ∃ nj, (∀ q ∈ l1, q.nj = nj) ∧ ∀ q ∈ l2, q.nj ≠ nj
  change : ∃ pre post, l2 = pre ++ c :: post ∧ (∀ q ∈ pre, c.startStep < q.startStep) ∧
    ∀ q ∈ post, c.startStep ≤ q.startStep

end Spec

theorem Spec.GridChange.mem {sel l1 l2 : List (GMsg α)} {c : GMsg α} (h : GridChange sel l1 l2 c) : c ∈ l2 := by
  obtain ⟨pre, post, rfl, -, -⟩ := h.change
  exact List.mem_append_right _ (List.mem_cons_self ..)

/-- The settings of a run on a file with a change of grid. -/
theorem change_settings (x : FileIn n k) (hidx : x.indexable = true)
    (hup : x.sel.shortName.map Char.toUpper ≠ x.sel.shortName)
    (hsame : ∀ w ∈ x.file, asksFor x.sel w = true → w.shortName = x.sel.shortName)
    (E : Int) (hE : LastStep x.file x.sel E) (lo hi : Int)
    (hwin : ∀ step, (StepsDiffer x.file x.sel → step ≠ 0) →
      readerWindow x.tstart x.tend (x.aggr.map AggrOpts.step) step E = (lo, hi))
    (l1 l2 : List (GMsg (Arr n))) (c : GMsg (Arr n)) (hch : GridChange (taken x.file x.sel lo hi) l1 l2 c)
    (hd1 : l1.Pairwise Spec.Differ) (hd2 : l2.Pairwise Spec.Differ) (mv : ℚ)
    (hmv : ∀ q ∈ l1, q.missingValue = .fin mv) (hdate : ∀ q ∈ l1, (reference q).isSome = true) :
    ∃ (info : StepsInfo) (t2 : String) (msgs : MsgSet n n) (s : Step), x.settings = .ok (x.assemble info t2 msgs) ∧
      info.end_ = E ∧ (∃ q ∈ taken x.file x.sel lo hi, t2 = String.ofList q.stepType) ∧ msgs.mv = .fin mv ∧
      msgs.first.map (fun e => (e.1.startStep, e.1.endStep, e.1.resolution, e.1.level, e.2)) =
        l1.map (fun q => (q.startStep, q.endStep, q.nj, q.level, q.values)) ∧
      msgs.second.map (fun e => (e.1.startStep, e.1.endStep, e.1.resolution, e.1.level, e.2)) =
        l2.map (fun q => (q.startStep, q.endStep, q.nj, q.level, q.values)) ∧
      msgs.changeResolutionStep = some s ∧ s.startStep = c.startStep ∧ s.endStep = c.endStep ∧
      x.firstSelected = l1.head? := by
  have hsrc0 : x.reader.src = .index x.sel.perturbation.isSome := by
    unfold FileIn.reader Reader.init
    rw [hidx]
    rfl
  obtain ⟨info, r1, hinfo, hsrc1, hend, hstep⟩ := info_facts x.file x.reader _ hsrc0 x.sel E hE
  have hw := hwin info.step hstep
  obtain ⟨g, r', hg, hmsgs, hin⟩ := getGids_order x.file r1 _ hsrc1 x.sel lo hi hup hsame
  obtain ⟨nj, hn1, hn2⟩ := hch.grids
  obtain ⟨pre, post, hl2, hpre, hpost⟩ := hch.change
  have hparts := hch.parts
  rw [hparts] at hmsgs
  obtain ⟨L1, L2, hL, hL1, hL2⟩ := List.map_eq_append_iff.1 hmsgs
  rw [hl2] at hL2
  obtain ⟨P, R, hP, hP1, hR⟩ := List.map_eq_append_iff.1 hL2
  obtain ⟨C, Q, hC, hC1, hQ⟩ := List.map_eq_cons_iff.1 hR
  cases hL1c : L1 with
  | nil =>
    rw [hL1c] at hL1
    exact absurd hL1.symm hch.some_first
  | cons p0 L1' =>
    rw [hL1c] at hL hL1
    have hgne : g ≠ [] := by
      rintro rfl
      cases hL
    have hp0 : p0.2 ∈ l1 := by
      rw [← hL1]
      exact List.mem_cons_self ..
    have hsel : ∃ r2, Reader.select x.file r1 (selectCmd x.sel lo hi) =
        (.ok (group r'.stepGrib r'.stepGrib2 r'.changeStepAt r'.ext (msgsOf x.file g)).1, r2) := by
      unfold Reader.select
      rw [hg]
      dsimp only
      rw [if_pos (List.length_pos_iff.2 hgne)]
      exact ⟨_, rfl⟩
    obtain ⟨r2, hsel⟩ := hsel
    rw [hL, List.cons_append] at hsel
    have hm1 : ∀ p ∈ p0 :: L1', p.2 ∈ l1 := fun p hp => by
      rw [← hL1]
      exact List.mem_map_of_mem (f := fun q : Nat × GMsg (Arr n) => q.2) hp
    have hm2 : ∀ p ∈ L2, p.2 ∈ l2 := fun p hp => by
      rw [hl2, ← hL2]
      exact List.mem_map_of_mem (f := fun q : Nat × GMsg (Arr n) => q.2) hp
    obtain ⟨f1, f2, s, f3, f4, f5⟩ := group_two r'.stepGrib r'.stepGrib2 r'.changeStepAt r'.ext p0 L1' L2
      (fun p hp => (hn1 _ (hm1 p hp)).trans (hn1 _ hp0).symm)
      (fun p hp => by rw [hn1 _ hp0]; exact hn2 _ (hm2 p hp))
      (by rw [← hL1, List.pairwise_map] at hd1; exact hd1)
      (by rw [hl2, ← hL2, List.pairwise_map] at hd2; exact hd2)
      P Q C (by rw [hP, hC])
      (fun q hq => by
        rw [hC1]
        refine hpre _ ?_
        rw [← hP1]
        exact List.mem_map_of_mem (f := fun q : Nat × GMsg (Arr n) => q.2) hq)
      (fun q hq => by
        rw [hC1]
        refine hpost _ ?_
        rw [← hQ]
        exact List.mem_map_of_mem (f := fun q : Nat × GMsg (Arr n) => q.2) hq)
    set sl := (group r'.stepGrib r'.stepGrib2 r'.changeStepAt r'.ext (p0 :: (L1' ++ L2))).1 with hsl
    clear_value sl
    have hfne : sl.first ≠ [] := by
      intro h
      rw [h] at f1
      cases f1
    have hgh : ∃ q g', g = q :: g' ∧ x.file[q.2]? = some p0.2 := by
      cases hgc : g with
      | nil => exact absurd hgc hgne
      | cons q g' =>
        refine ⟨q, g', rfl, ?_⟩
        obtain ⟨w, hw⟩ := hin q (by rw [hgc]; exact List.mem_cons_self ..)
        rw [hgc] at hL
        unfold msgsOf at hL
        rw [List.filterMap_cons, hw] at hL
        dsimp only [Option.map_some] at hL
        rw [List.cons_append] at hL
        have := (List.cons.inj hL).1
        rw [hw, ← this]
    obtain ⟨q, g', hgc, hq⟩ := hgh
    have hfm : FileIn.firstMsg x.file r1 (selectCmd x.sel lo hi) = some p0.2 := by
      unfold FileIn.firstMsg
      rw [hg]
      dsimp only
      rw [hgc]
      exact hq
    obtain ⟨q0, hq0⟩ := Option.isSome_iff_exists.1 (hdate p0.2 hp0)
    have hMv : x.selectedMv r1 (selectCmd x.sel lo hi) = .fin mv := by
      unfold FileIn.selectedMv FileIn.firstMv
      rw [hfm]
      exact hmv p0.2 hp0
    have hTy : ∃ q ∈ taken x.file x.sel lo hi,
        x.selectedType r1 (selectCmd x.sel lo hi) = String.ofList q.stepType := by
      obtain ⟨q, hq, hqg⟩ : ∃ q, (if 1 < g.length then g[1]? else g[0]?) = some q ∧ q ∈ g := by
        by_cases hl : 1 < g.length
        · rw [if_pos hl]
          exact ⟨_, List.getElem?_eq_getElem hl, List.getElem_mem hl⟩
        · rw [if_neg hl]
          have h0 := List.length_pos_iff.2 hgne
          exact ⟨_, List.getElem?_eq_getElem h0, List.getElem_mem h0⟩
      obtain ⟨w, hw⟩ := hin q hqg
      refine ⟨w, ?_, ?_⟩
      · rw [hparts, ← hmsgs]
        refine List.mem_map.2 ⟨(q.1, w), ?_, rfl⟩
        unfold msgsOf
        rw [List.mem_filterMap]
        exact ⟨q, hqg, by rw [hw]; rfl⟩
      · unfold FileIn.selectedType
        rw [hg]
        dsimp only
        rw [hq, Option.bind_some, hw]
    obtain ⟨msgs, hi1, hi2, hi3, hi4, hi5⟩ := init_ok sl.first (x.selectedMv r1 (selectCmd x.sel lo hi)) (x.grid sl)
      sl.second hfne
    refine ⟨info, x.selectedType r1 (selectCmd x.sel lo hi), msgs, s, ?_, hend, hTy, hi4.trans hMv, ?_, ?_, ?_,
      by rw [f4, hC1], by rw [f5, hC1], ?_⟩
    · unfold FileIn.settings
      rw [hinfo]
      dsimp only
      rw [hend, hw]
      dsimp only
      rw [hsel]
      dsimp only
      unfold FileIn.firstTime
      rw [hfm]
      dsimp only
      rw [reference_eq hq0]
      dsimp only
      rw [hi1]
    · rw [hi2, f1, ← hL1, List.map_map]
      rfl
    · rw [hi3, f2, hl2, ← hL2, List.map_map]
      rfl
    · unfold MsgSet.changeResolutionStep
      rw [hi5]
      unfold FileIn.grid
      rw [f3]
      rfl
    · unfold FileIn.firstSelected
      rw [hinfo]
      dsimp only
      rw [hend, hw]
      dsimp only
      rw [hfm, ← hL1]
      rfl

/-- **C162**, accumulation. A command on one file that can be indexed, aggregating over steps of `a` hours. The messages
taken (all under the short name asked for) are first on one grid (`l1`), then on another (`l2`), and `c` is the first of
`l2` with the smallest start step; both parts hold the needed steps, and the run ends more than `a` hours after `c`. The
intervals that end at `start`, `start + a`, … up to the start of `c` are made from the messages of the first grid with its
table and heights, then those that end at `end of c + a`, … up to the end of the run from the messages of the second grid
with its table and heights. -/
theorem change_accumulation_run (ne : NumExpr) (x : FileIn n k) (f : Num → Num) (mv : ℚ) (hidx : x.indexable = true)
    (hup : x.sel.shortName.map Char.toUpper ≠ x.sel.shortName)
    (hsame : ∀ w ∈ x.file, asksFor x.sel w = true → w.shortName = x.sel.shortName)
    (ao : AggrOpts) (hagg : x.aggr = some ao)
    (hty : ao.type = "accumulation") (a : Int) (ha : ao.step = a) (hpos : 0 < a)
    (E : Int) (hE : LastStep x.file x.sel E) (hreg : StepsDiffer x.file x.sel) (start hi : Int)
    (hst : start = x.tstart.getD 0) (hhi : hi = windowEnd x.tend E)
    (sel l1 l2 : List (GMsg (Arr n))) (c : GMsg (Arr n)) (hsel : sel = taken x.file x.sel (max 0 (start - a)) hi)
    (hch : GridChange sel l1 l2 c) (hd1 : (l1.map GMsg.endStep).Nodup) (hd2 : (l2.map GMsg.endStep).Nodup)
    (hmv : ∀ q ∈ sel, q.missingValue = .fin mv) (hdate : ∀ q ∈ sel, (reference q).isSome = true)
    (hconv : Means ne x.conversion f) (hfit : Fits x.table n) (hfit2 : Fits x.table2 n)
    (hse : c.startStep ≤ c.endStep) (h0 : 0 ≤ c.endStep) (hend : c.endStep + a < hi)
    (hcur : ∀ t, InRange (firstEnd start a) c.startStep a t →
      (∃ q ∈ l1, q.endStep = t) ∧ (t - a = 0 ∨ ∃ q ∈ l1, q.endStep = t - a))
    (hcur2 : ∀ t, InRange (c.endStep + a) hi a t →
      (∃ q ∈ l2, q.endStep = t) ∧ (t - a = 0 ∨ ∃ q ∈ l2, q.endStep = t - a)) :
    ∃ files n1 n2, x.pcraster ne = .ok files ∧ files.length = n1 + n2 ∧
      (∀ j : Nat, j < n1 ↔ firstEnd start a + j * a ≤ c.startStep) ∧
      (∀ j : Nat, j < n2 ↔ c.endStep + a + j * a ≤ hi) ∧
      (∀ (j : Nat) t, t = firstEnd start a + j * a → t ≤ c.startStep →
        ∃ D, AccumulatedFrom mv f l1 ao.forceZero x.unitTime a t D ∧
          files[j]? = some (pcrName x.namePrefix x.fmap x.ext (j + 1), fun i => shown x.mask x.mvClone
            (finalCell x.height (cellOf x.table x.mvOut
              (Spec.cutField (x.conversion.isSome && x.cutOff) D) i) i) i)) ∧
      ∀ (j : Nat) t, t = c.endStep + a + j * a → t ≤ hi →
        ∃ D, AccumulatedFrom mv f l2 ao.forceZero x.unitTime a t D ∧
          files[n1 + j]? = some (pcrName x.namePrefix x.fmap x.ext ((n1 : Int) + j + 1), fun i => shown x.mask x.mvClone
            (finalCell x.height2 (cellOf x.table2 x.mvOut
              (Spec.cutField (x.conversion.isSome && x.cutOff) D) i) i) i) := by
  subst hsel
  have hwin : ∀ step, (StepsDiffer x.file x.sel → step ≠ 0) →
      readerWindow x.tstart x.tend (x.aggr.map AggrOpts.step) step E = (max 0 (start - a), hi) := fun step h => by
    rw [hagg, hst, hhi, ← ha]
    exact window_aggr x.tstart x.tend ao.step step E (h hreg)
  have hin1 : ∀ q ∈ l1, q ∈ taken x.file x.sel (max 0 (start - a)) hi := fun q hq => by
    rw [hch.parts]; exact List.mem_append_left _ hq
  obtain ⟨info, t2, msgs, s, hs, hend', ht2, hmvs, hmap, hmap2, hcr, hcs1, hcs2, -⟩ := change_settings x hidx hup hsame E hE
    _ _ hwin l1 l2 c hch (differ_of_ends hd1) (differ_of_ends hd2) mv (fun q hq => hmv q (hin1 q hq))
    (fun q hq => hdate q (hin1 q hq))
  have hr := range_eq x info
  rw [hend'] at hr
  have hrs : (x.range info).1 = start := by rw [hr, hst]
  have hre : (x.range info).2 = hi := by rw [hr, hhi]
  have hav := avail_file (List.Perm.refl l1) hmap
  have hav2 := avail_file (List.Perm.refl l2) hmap2
  have hfne : msgs.first ≠ [] := by
    intro h
    rw [h, List.map_nil] at hmap
    exact hch.some_first (List.map_eq_nil_iff.1 hmap.symm)
  have hrun := two_grid_accumulation_run ne (x.assemble info t2 msgs) f mv hmvs hconv hfit hfit2
    s a hcr (by rw [hcs1, hcs2]; exact hse) (by rw [hcs2]; exact h0)
    (by unfold FileIn.assemble; rw [hagg]; rfl) (by unfold FileIn.assemble; rw [hagg, ← ha]; rfl) hpos
    (by rw [hcs2]; exact lt_of_lt_of_eq hend hre.symm)
    (by unfold FileIn.assemble; rw [hagg, ← hty]; rfl) hfne
    (by
      change ∀ t, InRange (firstEnd (x.range info).1 a) _ a t → _
      rw [hrs, hcs1]
      intro t ht
      obtain ⟨c1, c2⟩ := hcur t ht
      exact ⟨(hav t).2 c1, c2.imp id (hav _).2⟩)
    (by
      change ∀ t, InRange _ (x.range info).2 a t → _
      rw [hre, hcs2]
      intro t ht
      obtain ⟨c1, c2⟩ := hcur2 t ht
      exact ⟨(hav2 t).2 c1, c2.imp id (hav2 _).2⟩)
  obtain ⟨files, n1, n2, h1, h2, h3, h4, h5, h6⟩ := hrun
  change ∀ j : Nat, j < n1 ↔ firstEnd (x.range info).1 a + j * a ≤ _ at h3
  change ∀ j : Nat, j < n2 ↔ _ ≤ (x.range info).2 at h4
  change ∀ (j : Nat) t, t = firstEnd (x.range info).1 a + j * a → _ at h5
  change ∀ (j : Nat) t, _ → t ≤ (x.range info).2 → _ at h6
  rw [hrs, hcs1] at h3 h5
  rw [hre, hcs2] at h4 h6
  have hfz : (x.assemble info t2 msgs).ctrl.forceZero = ao.forceZero := by
    unfold FileIn.assemble
    rw [hagg]
    rfl
  rw [hfz] at h5 h6
  refine ⟨files, n1, n2, ?_, h2, h3, h4, ?_, ?_⟩
  · unfold FileIn.pcraster
    rw [hs]
    exact h1
  · intro j t ht hle
    obtain ⟨D, g1, g2⟩ := h5 j t ht hle
    exact ⟨D, accumulated_from (List.Perm.refl l1) hmap g1, g2⟩
  · intro j t ht hle
    obtain ⟨D, g1, g2⟩ := h6 j t ht hle
    exact ⟨D, accumulated_from (List.Perm.refl l2) hmap2 g1, g2⟩

/-- **C162**, average (without half weights, from a start different from 0, of messages that are not accumulated): the
same, where the messages of each grid reach the end of their part. -/
theorem change_average_run (ne : NumExpr) (x : FileIn n k) (f : Num → Num) (mv : ℚ) (hidx : x.indexable = true)
    (hup : x.sel.shortName.map Char.toUpper ≠ x.sel.shortName)
    (hsame : ∀ w ∈ x.file, asksFor x.sel w = true → w.shortName = x.sel.shortName)
    (ao : AggrOpts) (hagg : x.aggr = some ao)
    (hty : ao.type = "average") (hh : ao.halfweights = false) (a : Int) (ha : ao.step = a) (hpos : 0 < a)
    (hinst : ∀ q ∈ x.file, String.ofList q.stepType ≠ "accum")
    (E : Int) (hE : LastStep x.file x.sel E) (hreg : StepsDiffer x.file x.sel) (start hi : Int)
    (hst : start = x.tstart.getD 0) (hstart : start ≠ 0) (hhi : hi = windowEnd x.tend E)
    (sel l1 l2 : List (GMsg (Arr n))) (c : GMsg (Arr n)) (hsel : sel = taken x.file x.sel (max 0 (start - a)) hi)
    (hch : GridChange sel l1 l2 c) (hd1 : (l1.map GMsg.endStep).Nodup) (hd2 : (l2.map GMsg.endStep).Nodup)
    (hmv : ∀ q ∈ sel, q.missingValue = .fin mv) (hdate : ∀ q ∈ sel, (reference q).isSome = true)
    (hconv : Means ne x.conversion f) (hfit : Fits x.table n) (hfit2 : Fits x.table2 n)
    (hse : c.startStep ≤ c.endStep) (h0 : 0 ≤ c.endStep) (hend : c.endStep + a < hi)
    (hex : ∃ q ∈ l1, c.startStep ≤ q.endStep) (hex2 : ∃ q ∈ l2, hi ≤ q.endStep) :
    ∃ files n1 n2, x.pcraster ne = .ok files ∧ files.length = n1 + n2 ∧
      (∀ j : Nat, j < n1 ↔ start + j * a ≤ c.startStep) ∧
      (∀ j : Nat, j < n2 ↔ c.endStep + a + j * a ≤ hi) ∧
      (∀ (j : Nat) t, t = start + j * a → t ≤ c.startStep →
        ∃ D, MeanFrom mv f l1 a t D ∧
          files[j]? = some (pcrName x.namePrefix x.fmap x.ext (j + 1), fun i => shown x.mask x.mvClone
            (finalCell x.height (cellOf x.table x.mvOut
              (Spec.cutField (x.conversion.isSome && x.cutOff) D) i) i) i)) ∧
      ∀ (j : Nat) t, t = c.endStep + a + j * a → t ≤ hi →
        ∃ D, MeanFrom mv f l2 a t D ∧
          files[n1 + j]? = some (pcrName x.namePrefix x.fmap x.ext ((n1 : Int) + j + 1), fun i => shown x.mask x.mvClone
            (finalCell x.height2 (cellOf x.table2 x.mvOut
              (Spec.cutField (x.conversion.isSome && x.cutOff) D) i) i) i) := by
  subst hsel
  have hwin : ∀ step, (StepsDiffer x.file x.sel → step ≠ 0) →
      readerWindow x.tstart x.tend (x.aggr.map AggrOpts.step) step E = (max 0 (start - a), hi) := fun step h => by
    rw [hagg, hst, hhi, ← ha]
    exact window_aggr x.tstart x.tend ao.step step E (h hreg)
  have hin1 : ∀ q ∈ l1, q ∈ taken x.file x.sel (max 0 (start - a)) hi := fun q hq => by
    rw [hch.parts]; exact List.mem_append_left _ hq
  obtain ⟨info, t2, msgs, s, hs, hend', ht2, hmvs, hmap, hmap2, hcr, hcs1, hcs2, -⟩ := change_settings x hidx hup hsame E hE
    _ _ hwin l1 l2 c hch (differ_of_ends hd1) (differ_of_ends hd2) mv (fun q hq => hmv q (hin1 q hq))
    (fun q hq => hdate q (hin1 q hq))
  have hr := range_eq x info
  rw [hend'] at hr
  have hrs : (x.range info).1 = start := by rw [hr, hst]
  have hre : (x.range info).2 = hi := by rw [hr, hhi]
  have hav := avail_file (List.Perm.refl l1) hmap
  have hav2 := avail_file (List.Perm.refl l2) hmap2
  have hfile : ∀ q ∈ taken x.file x.sel (max 0 (start - a)) hi, q ∈ x.file := by
    intro q hq
    unfold taken at hq
    split at hq
    · exact (List.mem_filter.1 hq).1
    · exact (List.mem_filter.1 hq).1
  obtain ⟨mt, hmt, hmn, hpt⟩ := paramType_mem x hidx E hE
  obtain ⟨qt, hqt, ht2⟩ := ht2
  have hrun := two_grid_average_run ne (x.assemble info t2 msgs) f mv hmvs hconv hfit hfit2
    s a hcr (by rw [hcs1, hcs2]; exact hse) (by rw [hcs2]; exact h0)
    (by unfold FileIn.assemble; rw [hagg]; rfl) (by unfold FileIn.assemble; rw [hagg, ← ha]; rfl) hpos
    (by rw [hcs2]; exact lt_of_lt_of_eq hend hre.symm)
    (by unfold FileIn.assemble; rw [hagg, ← hty]; rfl)
    (by
      change x.paramType ≠ "accum"
      rw [hpt]
      exact hinst mt hmt)
    (by
      change t2 ≠ "accum"
      rw [ht2]
      exact hinst qt (hfile qt hqt))
    (by unfold FileIn.assemble; rw [hagg, ← hh]; rfl)
    (by
      change (x.range info).1 ≠ 0
      rw [hrs]
      exact hstart)
    (by
      rw [hcs1]
      obtain ⟨q, hq, hle⟩ := hex
      exact ⟨q.endStep, (hav _).2 ⟨q, hq, rfl⟩, hle⟩)
    (by
      obtain ⟨q, hq, hle⟩ := hex2
      exact ⟨q.endStep, (hav2 _).2 ⟨q, hq, rfl⟩, le_of_eq_of_le hre hle⟩)
  obtain ⟨files, n1, n2, h1, h2, h3, h4, h5, h6⟩ := hrun
  change ∀ j : Nat, j < n1 ↔ (x.range info).1 + j * a ≤ _ at h3
  change ∀ j : Nat, j < n2 ↔ _ ≤ (x.range info).2 at h4
  change ∀ (j : Nat) t, t = (x.range info).1 + j * a → _ at h5
  change ∀ (j : Nat) t, _ → t ≤ (x.range info).2 → _ at h6
  rw [hrs, hcs1] at h3 h5
  rw [hre, hcs2] at h4 h6
  refine ⟨files, n1, n2, ?_, h2, h3, h4, ?_, ?_⟩
  · unfold FileIn.pcraster
    rw [hs]
    exact h1
  · intro j t ht hle
    obtain ⟨D, g1, g2⟩ := h5 j t ht hle
    exact ⟨D, mean_from (List.Perm.refl l1) hmap hch.some_first g1, g2⟩
  · intro j t ht hle
    obtain ⟨D, g1, g2⟩ := h6 j t ht hle
    exact ⟨D, mean_from (List.Perm.refl l2) hmap2 (List.ne_nil_of_mem hch.mem) g1, g2⟩

namespace Demo

/-- A message of six hours that ends at `e`, with a step unit. -/
def sixH {q : Nat} (nj e : Int) (mv : ℚ) (v : Fin q → Num) : GMsg (Arr q) := { six nj e mv v with other := noonH }

/-- The first messages of a file with a change of grid: steps 6 and 12 on the first grid. -/
def coarse : List (GMsg (Arr 2)) :=
  [sixH 10 6 (-9999) fun i => if i = 0 then .fin 1 else .fin 2, sixH 10 12 (-9999) fun i => if i = 0 then .fin 3 else .fin 4]

/-- Its other messages: steps 18 to 30 on the second grid. -/
def fine : List (GMsg (Arr 2)) :=
  [sixH 5 18 (-9999) fun _ => .fin 7, sixH 5 24 (-9999) fun i => if i = 0 then .fin 8 else .fin 9,
    sixH 5 30 (-9999) fun _ => .fin 11]

/-- Six-hourly aggregation of type `ty` from step 6 on; the second grid has its own table. -/
def changing (ty : String) : FileIn 2 1 :=
  { fileIn (some 6) none (some ⟨6, ty, false, false⟩) true with
    file := coarse ++ fine
    conversion := some (some "x=x*2".toList)
    table2 := .nearest fun _ => 0 }

theorem changing_last (ty : String) : LastStep (changing ty).file (changing ty).sel 30 := by
  refine ⟨⟨sixH 5 30 (-9999) fun _ => .fin 11, ?_,
    (by decide +kernel : named (fileIn none none none true).sel (sixH 5 30 (-9999) fun x : Fin 2 => Num.fin 11) = true),
    rfl⟩, ?_⟩
  · change _ ∈ coarse ++ fine
    unfold fine
    simp
  · change ∀ q ∈ coarse ++ fine, named (fileIn none none none true).sel q = true → q.endStep ≤ 30
    decide +kernel

theorem changing_steps (ty : String) : StepsDiffer (changing ty).file (changing ty).sel := by
  change StepsDiffer (coarse ++ fine) (fileIn none none none true).sel
  refine ⟨by decide +kernel, ?_⟩
  intro q hq
  have := congrArg List.length hq
  revert this
  have : ((coarse ++ fine).filter (named (fileIn none none none true).sel)).length = 5 := by decide +kernel
  rw [this]
  intro h
  cases h

theorem changing_taken (ty : String) : coarse ++ fine = taken (changing ty).file (changing ty).sel (max 0 (6 - 6)) 30 := by
  change coarse ++ fine = taken (coarse ++ fine) (fileIn none none none true).sel (max 0 (6 - 6)) 30
  have hq : ∀ q ∈ coarse ++ fine,
    (asksFor (fileIn none none none true).sel q && inWindow (max 0 (6 - 6)) 30 q) = true := by decide +kernel
  unfold taken
  rw [List.filter_eq_self.2 hq]
  rfl

theorem changing_change : GridChange (coarse ++ fine) coarse fine (sixH 5 18 (-9999) fun _ => .fin 7) where
  parts := rfl
  some_first := by intro h; cases h
  grids := ⟨10, by decide +kernel, by decide +kernel⟩
  change := ⟨[], _, rfl, by decide +kernel, by decide +kernel⟩

theorem doubled : Means runNe (some (some "x=x*2".toList)) (fun a => a * .fin 2) :=
  Or.inr ⟨"x*2".toList, by
    intro a b h
    have h2 : '=' ∈ "x*2".toList := by rw [h]; simp
    revert h2; decide, by decide, rfl, rfl⟩

/-- C162: averages, two on the first grid (point 1), two on the second (point 0). -/
example : ∃ files n1 n2, (changing "average").pcraster runNe = .ok files ∧ files.length = n1 + n2 ∧
    (∀ j : Nat, j < n1 ↔ 6 + (j : Int) * 6 ≤ 12) ∧ (∀ j : Nat, j < n2 ↔ 18 + 6 + (j : Int) * 6 ≤ 30) := by
  obtain ⟨files, n1, n2, h1, h2, h3, h4, -⟩ := change_average_run runNe (changing "average") (fun a => a * .fin 2) (-9999)
    rfl (by decide +kernel) (by decide +kernel) _ rfl rfl rfl 6 rfl (by decide) (by decide +kernel) 30
    (changing_last _) (changing_steps _) 6 30 rfl (by decide) rfl _ _ _ _ (changing_taken _) changing_change
    (by decide +kernel) (by decide +kernel) (by decide +kernel) (by decide +kernel) doubled
    (fun _ => Nat.le_succ 1) (fun _ => Nat.zero_le 2) (by decide) (by decide) (by decide) (by decide +kernel)
    (by decide +kernel)
  exact ⟨files, n1, n2, h1, h2, h3, h4⟩

example : ((changing "average").pcraster runNe).toOption.map (·.map fun p => (p.1, p.2 0)) =
    some [("tp000000.001".toList, .fin 4), ("tp000000.002".toList, .fin 8), ("tp000000.003".toList, .fin 16),
      ("tp000000.004".toList, .fin 22)] := by decide +kernel

/-- C162: accumulation. -/
example : ∃ files n1 n2, (changing "accumulation").pcraster runNe = .ok files ∧ files.length = n1 + n2 ∧
    (∀ j : Nat, j < n1 ↔ 6 + (j : Int) * 6 ≤ 12) ∧ (∀ j : Nat, j < n2 ↔ 18 + 6 + (j : Int) * 6 ≤ 30) := by
  obtain ⟨files, n1, n2, h1, h2, h3, h4, -⟩ := change_accumulation_run runNe (changing "accumulation")
    (fun a => a * .fin 2) (-9999)
    rfl (by decide +kernel) (by decide +kernel) _ rfl rfl 6 rfl (by decide) 30
    (changing_last _) (changing_steps _) 6 30 rfl rfl _ _ _ _ (changing_taken _) changing_change
    (by decide +kernel) (by decide +kernel) (by decide +kernel) (by decide +kernel) doubled
    (fun _ => Nat.le_succ 1) (fun _ => Nat.zero_le 2) (by decide) (by decide) (by decide)
    (by
      rintro t ⟨j, rfl, hj⟩
      have hf : firstEnd 6 6 = 6 := rfl
      rw [hf] at hj ⊢
      have hj : 6 + (j : Int) * 6 ≤ 12 := hj
      have : j = 0 ∨ j = 1 := by omega
      rcases this with rfl | rfl
      · exact ⟨by decide +kernel, .inl (by decide)⟩
      · exact ⟨by decide +kernel, .inr (by decide +kernel)⟩)
    (by
      rintro t ⟨j, rfl, hj⟩
      have hc : (sixH 5 18 (-9999) fun _ => Num.fin 7 : GMsg (Arr 2)).endStep = 18 := rfl
      rw [hc] at hj ⊢
      have : j = 0 ∨ j = 1 := by omega
      rcases this with rfl | rfl
      · exact ⟨by decide +kernel, .inr (by decide +kernel)⟩
      · exact ⟨by decide +kernel, .inr (by decide +kernel)⟩)
  exact ⟨files, n1, n2, h1, h2, h3, h4⟩

example : ((changing "accumulation").pcraster runNe).toOption.map (·.map fun p => (p.1, p.2 0)) =
    some [("tp000000.001".toList, .fin 16), ("tp000000.002".toList, .fin 16), ("tp000000.003".toList, .fin 8),
      ("tp000000.004".toList, .fin 24)] := by decide +kernel

end Demo

end PyG2P
