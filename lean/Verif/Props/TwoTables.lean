import Verif.Props.TwoFileEnds

/-! # Commands with two input files, one of whose tables is missing -/

namespace PyG2P
open ArgParse CommandRun Store Spec TableApply Converter Aggregator
variable {n m k : Nat}

namespace Spec

/-- Table `t` is registered for the grids and the method of the request, as a compressed file of folder `dir`. -/
def TableThere (w : Store (Table k)) (ts : TableSite k) (r : Request) (dir : Str) (t : Table k) : Prop :=
  dir ≠ [] ∧ ∃ f, isGz f = true ∧ ∀ mark, (r.mode, mark) ∈ marks →
    Registered dir f (tableId (ts.gridId r.input) (ts.target r.latMap r.lonMap) mark) t w

end Spec

/-! ## Which maps are made with the first table -/

/-- The first `n1` fields of a run are of the first grid, the others of the second. -/
def SplitsAt (ne : NumExpr) (r : RunIn n m k) (n1 : Nat) : Prop :=
  ∃ values change, r.fields ne = .ok (values, change) ∧ n1 < values.length ∧
    ∀ (i : Nat) e, (gridLoop change false values)[i]? = some e → (e.2.2 = true ↔ n1 ≤ i)

/-- The fields of a run on two grids (see `two_grids`). -/
theorem split_two {ne : NumExpr} {r : RunIn n m k} {f : Num → Num} {mv : ℚ} (hmv : r.ctrl.msgs.mv = .fin mv)
    (hconv : Means ne r.conversion f) {s : Step} {a : Int}
    (hch : r.ctrl.msgs.changeResolutionStep = some s) (hse : s.startStep ≤ s.endStep)
    (hagg : r.ctrl.aggregate = true) (ha : r.ctrl.aggrStep = some a) (hpos : 0 < a)
    (hend : s.endStep + a < r.ctrl.end_) {lo : Int} {key1 key2 : Int → Step} {V1 : Int → Arr n} {V2 : Int → Arr m}
    (hk1 : ∀ t, (key1 t).startStep = t - a ∧ (key1 t).endStep = t)
    (hk2 : ∀ t, (key2 t).startStep = t - a ∧ (key2 t).endStep = t)
    (h1 : (convertedCtrl mv f r.ctrl).firstPart =
      .ok ((rangeList lo (s.startStep + 1) a).map fun t => (key1 t, V1 t)))
    (h2 : (r.ctrl.aggregator2 a (s.endStep + a)).doManipulation (convertedMsgs mv f r.ctrl.msgs.second) =
      .ok ((rangeList (s.endStep + a) (r.ctrl.end_ + 1) a).map fun t => (key2 t, V2 t))) :
    SplitsAt ne r (rangeList lo (s.startStep + 1) a).length := by
  have hord : ((rangeList lo (s.startStep + 1) a).map key1 ++
      (rangeList (s.endStep + a) (r.ctrl.end_ + 1) a).map key2).Pairwise fun x y => x.endStep < y.endStep := by
    rw [List.pairwise_append]
    refine ⟨?_, ?_, ?_⟩
    · rw [List.pairwise_map]
      refine (rangeList_pairwise hpos).imp fun h => ?_
      rw [(hk1 _).2, (hk1 _).2]
      exact h
    · rw [List.pairwise_map]
      refine (rangeList_pairwise hpos).imp fun h => ?_
      rw [(hk2 _).2, (hk2 _).2]
      exact h
    · intro x hx y hy
      obtain ⟨t, ht, rfl⟩ := List.mem_map.1 hx
      obtain ⟨u, hu, rfl⟩ := List.mem_map.1 hy
      rw [(hk1 _).2, (hk2 _).2]
      obtain ⟨_, -, h⟩ := (mem_rangeList hpos).1 ht
      obtain ⟨i, hi, -⟩ := (mem_rangeList hpos).1 hu
      have : 0 ≤ (i : Int) * a := Int.mul_nonneg (by omega) (by omega)
      omega
  rw [rangeList_cons hpos (show s.endStep + a < r.ctrl.end_ + 1 by omega)] at h2 hord
  generalize rangeList lo (s.startStep + 1) a = l1 at h1 hord ⊢
  generalize rangeList (s.endStep + a + a) (r.ctrl.end_ + 1) a = l2 at h2 hord
  have hk : ∀ {α : Type} (l : List Int) (key : Int → Step) (V : Int → α),
      Dict.keys (l.map fun t => (key t, V t)) = l.map key := by
    intro α l key V
    unfold Dict.keys
    rw [List.map_map]
    rfl
  have hrun := run_two (c := { convertedCtrl mv f r.ctrl with cutOff := cuts r }) hch hagg ha hend h1 h2
    (p0 := (key2 (s.endStep + a), V2 (s.endStep + a))) rfl (by rw [hk, hk]; exact hord)
  rw [← fields_two ne r f mv hmv hconv] at hrun
  dsimp only at hrun
  rw [List.map_map, List.map_map] at hrun
  set A : List (Step × Field n m) := l1.map fun t => (key1 t, (Sum.inl (Spec.cutField (cuts r) (V1 t)) : Field n m))
    with hA
  set B : List (Step × Field n m) := ((s.endStep + a) :: l2).map fun t =>
    (key2 t, (Sum.inr (Spec.cutField (cuts r) (V2 t)) : Field n m)) with hB
  have hrun' : r.fields ne = .ok (A ++ B, some (key2 (s.endStep + a))) := hrun
  have hgl : gridLoop (some (key2 (s.endStep + a))) false (A ++ B) =
      A.map (fun p => (p.1, p.2, false)) ++ B.map fun p => (p.1, p.2, true) := by
    refine gridLoop_two _ _ _ ?_ ⟨_, _, rfl⟩
    intro p hp hpe
    obtain ⟨t, ht, rfl⟩ := List.mem_map.1 hp
    have := (List.pairwise_append.1 hord).2.2 (key1 t) (List.mem_map_of_mem ht) (key2 (s.endStep + a)) (by simp)
    dsimp only at hpe
    rw [hpe] at this
    omega
  have hlA : A.length = l1.length := by rw [hA, List.length_map]
  refine ⟨_, _, hrun', by rw [List.length_append, hlA, hB, List.length_map, List.length_cons]; omega, ?_⟩
  intro i e he
  rw [hgl] at he
  by_cases hi : i < l1.length
  · rw [List.getElem?_append_left (by rw [List.length_map, hlA]; exact hi)] at he
    rw [List.getElem?_map, Option.map_eq_some_iff] at he
    obtain ⟨p, -, rfl⟩ := he
    exact ⟨(by intro h; cases h), fun h => absurd hi (by omega)⟩
  · rw [List.getElem?_append_right (by rw [List.length_map, hlA]; omega)] at he
    rw [List.getElem?_map, Option.map_eq_some_iff] at he
    obtain ⟨p, -, rfl⟩ := he
    exact ⟨fun _ => by omega, fun _ => rfl⟩

/-- An accumulation of two files. -/
theorem split_accumulation (ne : NumExpr) (x : FileIn n k) (y : SecondFile m) (f : Num → Num) (mv : ℚ)
    (hidx : x.indexable = true) (hidx2 : y.indexable = true)
    (hup : x.sel.shortName.map Char.toUpper ≠ x.sel.shortName) (ao : AggrOpts) (hagg : x.aggr = some ao)
    (hty : ao.type = "accumulation") (a : Int) (ha : ao.step = a) (hpos : 0 < a)
    (E : Int) (hE : LastStep x.file x.sel E) (hreg : StepsDiffer x.file x.sel) (start hi : Int)
    (hst : start = x.tstart.getD 0) (hhi : hi = windowEnd x.tend E)
    (sel : List (GMsg (Arr n))) (hsel : sel = taken x.file x.sel (max 0 (start - a)) hi) (hne : sel ≠ [])
    (sel2 : List (GMsg (Arr m))) (hsel2 : sel2 = taken y.file x.sel (max 0 (start - a)) hi)
    (nj : Int) (hnj : ∀ q ∈ sel, q.nj = nj) (hdiff : (sel.map GMsg.endStep).Nodup)
    (nj2 : Int) (hnj2 : ∀ q ∈ sel2, q.nj = nj2) (hdiff2 : (sel2.map GMsg.endStep).Nodup)
    (hmv : ∀ q ∈ sel, q.missingValue = .fin mv) (hdate : ∀ q ∈ sel, (reference q).isSome = true)
    (hdate2 : ∀ q ∈ sel2, (reference q).isSome = true) (hconv : Means ne x.conversion f)
    (c : GMsg (Arr m)) (hc : c ∈ sel2) (hcmin : ∀ q ∈ sel2, c.endStep ≤ q.endStep)
    (hse : c.startStep ≤ c.endStep) (h0 : 0 ≤ c.endStep) (hend : c.endStep + a < hi)
    (hcur : ∀ t, InRange (firstEnd start a) c.startStep a t →
      (∃ q ∈ sel, q.endStep = t) ∧ (t - a = 0 ∨ ∃ q ∈ sel, q.endStep = t - a))
    (hcur2 : ∀ t, InRange (c.endStep + a) hi a t →
      (∃ q ∈ sel2, q.endStep = t) ∧ (t - a = 0 ∨ ∃ q ∈ sel2, q.endStep = t - a)) :
    ∃ r, x.settingsTwo y = .ok r ∧ SplitsAt ne r (rangeList (firstEnd start a) (c.startStep + 1) a).length := by
  obtain ⟨info, t2, msgs, msgs2, ms, ms2, hs, hrs, hre, -, hmvs, hperm, hmap, hperm2, hmap2, hcs1, hcs2⟩ :=
    two_file_settings x y mv hidx hidx2 hup ao hagg a ha E hE hreg start hi hst hhi sel hsel hne sel2 hsel2 nj hnj hdiff
      nj2 hnj2 hdiff2 hmv hdate hdate2 c hc hcmin
  have hav := avail_file hperm hmap
  have hav2 := avail_file hperm2 hmap2
  have hfne : msgs.first ≠ [] := by
    intro h
    rw [h, List.map_nil] at hmap
    rw [List.map_eq_nil_iff.1 hmap.symm] at hperm
    exact hne (List.nil_perm.1 hperm)
  have hfne2 : msgs2.first ≠ [] := by
    intro h
    have := (hav2 _).2 ⟨c, hc, rfl⟩
    rw [h, avail_iff] at this
    cases this
  refine ⟨_, hs, ?_⟩
  set r := x.assemble info t2 (msgs.append2nd msgs2) with hr
  have hag : r.ctrl.aggregate = true := by rw [hr]; unfold FileIn.assemble; rw [hagg]; rfl
  have has : r.ctrl.aggrStep = some a := by rw [hr]; unfold FileIn.assemble; rw [hagg, ← ha]; rfl
  have htype : r.ctrl.aggrType = "accumulation" := by rw [hr]; unfold FileIn.assemble; rw [hagg, ← hty]; rfl
  have hst2 : firstEnd (c.endStep + a) a = c.endStep + a := by
    unfold firstEnd
    rw [if_neg (by omega)]
  obtain ⟨key1, V1, hk1, h1, -⟩ := acc_maps ((r.ctrl.aggregator a).changeEndStep c.startStep) mv f msgs.first
    hpos hfne (by
      change ∀ t, InRange (firstEnd (x.range info).1 a) _ a t → _
      rw [hrs]
      intro t ht
      obtain ⟨c1, c2⟩ := hcur t ht
      exact ⟨(hav t).2 c1, c2.imp id (hav _).2⟩)
  obtain ⟨key2, V2, hk2, h2, -⟩ := acc_maps (r.ctrl.aggregator2 a (c.endStep + a)) mv f msgs2.first
    hpos hfne2 (by
      change ∀ t, InRange (firstEnd (c.endStep + a) a) (x.range info).2 a t → _
      rw [hst2, hre]
      intro t ht
      obtain ⟨c1, c2⟩ := hcur2 t ht
      exact ⟨(hav2 t).2 c1, c2.imp id (hav2 _).2⟩)
  change _ = Except.ok ((rangeList (firstEnd (c.endStep + a) a) _ _).map _) at h2
  rw [hst2] at h2
  change _ = Except.ok ((rangeList (firstEnd (x.range info).1 a) (c.startStep + 1) a).map _) at h1
  rw [hrs] at h1
  have hch : r.ctrl.msgs.changeResolutionStep = some msgs2.firstStep := rfl
  rw [← hcs1] at h1 ⊢
  rw [← hcs2] at h2
  refine split_two (r := r) (s := msgs2.firstStep) (V1 := V1) hmvs hconv hch (by rw [hcs1, hcs2]; exact hse) hag has hpos
    (by rw [hcs2]; exact lt_of_lt_of_eq hend hre.symm) hk1 hk2 ?_ ((doManipulation_acc _ _ htype).trans h2)
  unfold CtrlIn.firstPart
  rw [if_pos (show (convertedCtrl mv f r.ctrl).aggregate = true from hag),
    show (convertedCtrl mv f r.ctrl).aggrStep = some a from has,
    show (convertedCtrl mv f r.ctrl).msgs.changeResolutionStep = some msgs2.firstStep from hch]
  exact (doManipulation_acc _ _ htype).trans h1

/-- An average of two files. -/
theorem split_average (ne : NumExpr) (x : FileIn n k) (y : SecondFile m) (f : Num → Num) (mv : ℚ)
    (hidx : x.indexable = true) (hidx2 : y.indexable = true)
    (hup : x.sel.shortName.map Char.toUpper ≠ x.sel.shortName) (ao : AggrOpts) (hagg : x.aggr = some ao)
    (hty : ao.type = "average") (hh : ao.halfweights = false) (a : Int) (ha : ao.step = a) (hpos : 0 < a)
    (hinst : ∀ q ∈ x.file, String.ofList q.stepType ≠ "accum")
    (E : Int) (hE : LastStep x.file x.sel E) (hreg : StepsDiffer x.file x.sel) (start hi : Int)
    (hst : start = x.tstart.getD 0) (hstart : start ≠ 0) (hhi : hi = windowEnd x.tend E)
    (sel : List (GMsg (Arr n))) (hsel : sel = taken x.file x.sel (max 0 (start - a)) hi)
    (sel2 : List (GMsg (Arr m))) (hsel2 : sel2 = taken y.file x.sel (max 0 (start - a)) hi)
    (nj : Int) (hnj : ∀ q ∈ sel, q.nj = nj) (hdiff : (sel.map GMsg.endStep).Nodup)
    (nj2 : Int) (hnj2 : ∀ q ∈ sel2, q.nj = nj2) (hdiff2 : (sel2.map GMsg.endStep).Nodup)
    (hmv : ∀ q ∈ sel, q.missingValue = .fin mv) (hdate : ∀ q ∈ sel, (reference q).isSome = true)
    (hdate2 : ∀ q ∈ sel2, (reference q).isSome = true) (hconv : Means ne x.conversion f)
    (c : GMsg (Arr m)) (hc : c ∈ sel2) (hcmin : ∀ q ∈ sel2, c.endStep ≤ q.endStep)
    (hse : c.startStep ≤ c.endStep) (h0 : 0 ≤ c.endStep) (hend : c.endStep + a < hi)
    (hex : ∃ q ∈ sel, c.startStep ≤ q.endStep) (hex2 : ∃ q ∈ sel2, hi ≤ q.endStep) :
    ∃ r, x.settingsTwo y = .ok r ∧ SplitsAt ne r (rangeList start (c.startStep + 1) a).length := by
  have hne : sel ≠ [] := by
    obtain ⟨q, hq, -⟩ := hex
    exact List.ne_nil_of_mem hq
  have hfile : ∀ q ∈ sel, q ∈ x.file := by
    intro q hq
    rw [hsel] at hq
    unfold taken at hq
    split at hq
    · exact (List.mem_filter.1 hq).1
    · exact (List.mem_filter.1 hq).1
  obtain ⟨info, t2, msgs, msgs2, ms, ms2, hs, hrs, hre, ⟨qt, hqt, ht2⟩, hmvs, hperm, hmap, hperm2, hmap2, hcs1, hcs2⟩ :=
    two_file_settings x y mv hidx hidx2 hup ao hagg a ha E hE hreg start hi hst hhi sel hsel hne sel2 hsel2 nj hnj hdiff
      nj2 hnj2 hdiff2 hmv hdate hdate2 c hc hcmin
  have hav := avail_file hperm hmap
  have hav2 := avail_file hperm2 hmap2
  obtain ⟨mt, hmt, hmn, hpt⟩ := paramType_mem x hidx E hE
  refine ⟨_, hs, ?_⟩
  set r := x.assemble info t2 (msgs.append2nd msgs2) with hr
  have hag : r.ctrl.aggregate = true := by rw [hr]; unfold FileIn.assemble; rw [hagg]; rfl
  have has : r.ctrl.aggrStep = some a := by rw [hr]; unfold FileIn.assemble; rw [hagg, ← ha]; rfl
  have htype : r.ctrl.aggrType = "average" := by rw [hr]; unfold FileIn.assemble; rw [hagg, ← hty]; rfl
  have hhw : r.ctrl.halfweights = false := by rw [hr]; unfold FileIn.assemble; rw [hagg, ← hh]; rfl
  obtain ⟨key1, V1, hk1, h1, -⟩ := avg_maps ((r.ctrl.aggregator a).changeEndStep c.startStep) mv f msgs.first
    htype hpos rfl (by
      change x.paramType ≠ "accum"
      rw [hpt]
      exact hinst mt hmt) hhw (by
      change (x.range info).1 ≠ 0
      rw [hrs]
      exact hstart) (by
      obtain ⟨q, hq, hle⟩ := hex
      exact ⟨q.endStep, (hav _).2 ⟨q, hq, rfl⟩, hle⟩)
  obtain ⟨key2, V2, hk2, h2, -⟩ := avg_maps (r.ctrl.aggregator2 a (c.endStep + a)) mv f msgs2.first
    htype hpos rfl (by
      change t2 ≠ "accum"
      rw [ht2]
      exact hinst qt (hfile qt hqt)) hhw (show c.endStep + a ≠ 0 by omega) (by
      obtain ⟨q, hq, hle⟩ := hex2
      exact ⟨q.endStep, (hav2 _).2 ⟨q, hq, rfl⟩, le_of_eq_of_le hre hle⟩)
  change _ = Except.ok ((rangeList (x.range info).1 (c.startStep + 1) a).map _) at h1
  rw [hrs] at h1
  have hch : r.ctrl.msgs.changeResolutionStep = some msgs2.firstStep := rfl
  rw [← hcs1] at h1 ⊢
  rw [← hcs2] at h2
  refine split_two (r := r) (s := msgs2.firstStep) (V1 := V1) hmvs hconv hch (by rw [hcs1, hcs2]; exact hse) hag has hpos
    (by rw [hcs2]; exact lt_of_lt_of_eq hend hre.symm) hk1 hk2 ?_ h2
  unfold CtrlIn.firstPart
  rw [if_pos (show (convertedCtrl mv f r.ctrl).aggregate = true from hag),
    show (convertedCtrl mv f r.ctrl).aggrStep = some a from has,
    show (convertedCtrl mv f r.ctrl).msgs.changeResolutionStep = some msgs2.firstStep from hch]
  exact h1

/-! ## Loops that stop at the second table -/

theorem split_tail {γ : Type} {x : γ × Field n m × Bool} {l : List (γ × Field n m × Bool)} {n1 : Nat}
    (h : ∀ (i : Nat) e, (x :: l)[i]? = some e → (e.2.2 = true ↔ n1 + 1 ≤ i)) (i : Nat) (e : γ × Field n m × Bool)
    (he : l[i]? = some e) : e.2.2 = true ↔ n1 ≤ i := by
  rw [h (i + 1) e (by rw [List.getElem?_cons_succ]; exact he)]
  omega

theorem loop_stops {β γ : Type} (le : Str → Str → Bool) (r : RunIn n m k) (put : γ → Arr k → β) (q q2 : Lookup k)
    (t t2 : Table k) (l : List (γ × Field n m × Bool)) (n1 : Nat)
    (hsplit : ∀ (i : Nat) e, l[i]? = some e → (e.2.2 = true ↔ n1 ≤ i)) (hlt : n1 < l.length) (o : List β)
    (hrun : pureMaps r t t2 put l = .ok o) (w : Store (Table k)) (hs : Sound w) (h1 : Settled w q t)
    (hfail : ∀ w' : Store (Table k), w'.conf = w.conf →
      ∃ c, c ≠ 3000 ∧ w'.table le q2 = (.error (.app c), w')) :
    ∃ c w', c ≠ 3000 ∧ r.mapLoop le q q2 put w l = ⟨o.take n1, some (.app c), w'⟩ ∧ w'.files = w.files ∧
      w'.conf = w.conf := by
  induction l generalizing n1 w o with
  | nil => cases hlt
  | cons e l ih =>
    have h0 := hsplit 0 e rfl
    obtain ⟨x, f, b⟩ := e
    cases n1 with
    | zero =>
      have hb : b = true := h0.2 (Nat.le_refl 0)
      subst hb
      obtain ⟨c, hc, hf⟩ := hfail w rfl
      refine ⟨c, w, hc, ?_, rfl, rfl⟩
      unfold RunIn.mapLoop
      rw [if_pos rfl, hf, List.take_zero]
    | succ n1 =>
      have hb : b = false := by
        cases b with
        | false => rfl
        | true => exact absurd (h0.1 rfl) (by omega)
      subst hb
      unfold pureMaps at hrun
      rw [List.mapM_cons] at hrun
      obtain ⟨y, hy, hrun⟩ := bind_ok_iff.1 hrun
      obtain ⟨o', ho', hrun⟩ := bind_ok_iff.1 hrun
      have hrun := Except.ok.inj hrun
      dsimp only at hy
      obtain ⟨e1, e2, e3⟩ := settled_lookup le hs h1
      cases hr : r.renderBy t false f with
      | error e =>
        rw [if_neg (by decide), hr] at hy
        cases hy
      | ok a =>
        rw [if_neg (by decide), hr] at hy
        have hy := Except.ok.inj hy
        obtain ⟨c, w', hc, hl, hf, hcf⟩ := ih n1 (fun i e he => split_tail hsplit i e he) (Nat.lt_of_succ_lt_succ hlt)
          o' ho' (w.table le q).2 (sound_table le hs q) (settled_table le hs h1)
          (fun w' hw' => hfail w' (hw'.trans e3))
        refine ⟨c, w', hc, ?_, hf.trans e2, hcf.trans e3⟩
        unfold RunIn.mapLoop
        rw [if_neg (by decide)]
        rw [show w.table le q = (.ok t, (w.table le q).2) from Prod.ext e1 rfl]
        dsimp only
        rw [hr]
        dsimp only
        rw [hl, ← hrun, ← hy, List.take_succ_cons]

theorem loop_fails {β γ : Type} (le : Str → Str → Bool) (r : RunIn n m k) (put : γ → Arr k → β) (q q2 : Lookup k)
    (t : Table k) (l : List (γ × Field n m × Bool)) (n1 : Nat)
    (hsplit : ∀ (i : Nat) e, l[i]? = some e → (e.2.2 = true ↔ n1 ≤ i)) (hlt : n1 < l.length)
    (w : Store (Table k)) (hs : Sound w) (h1 : Settled w q t)
    (hfail : ∀ w' : Store (Table k), w'.conf = w.conf →
      ∃ c, c ≠ 3000 ∧ w'.table le q2 = (.error (.app c), w')) :
    (∃ e, (r.mapLoop le q q2 put w l).error = some e) ∧ (r.mapLoop le q q2 put w l).store.files = w.files ∧
      (r.mapLoop le q q2 put w l).store.conf = w.conf := by
  induction l generalizing n1 w with
  | nil => cases hlt
  | cons e l ih =>
    have h0 := hsplit 0 e rfl
    obtain ⟨x, f, b⟩ := e
    cases n1 with
    | zero =>
      have hb : b = true := h0.2 (Nat.le_refl 0)
      subst hb
      obtain ⟨c, hc, hf⟩ := hfail w rfl
      unfold RunIn.mapLoop
      rw [if_pos rfl, hf]
      exact ⟨⟨_, rfl⟩, rfl, rfl⟩
    | succ n1 =>
      have hb : b = false := by
        cases b with
        | false => rfl
        | true => exact absurd (h0.1 rfl) (by omega)
      subst hb
      obtain ⟨e1, e2, e3⟩ := settled_lookup le hs h1
      unfold RunIn.mapLoop
      rw [if_neg (by decide)]
      rw [show w.table le q = (.ok t, (w.table le q).2) from Prod.ext e1 rfl]
      dsimp only
      cases hr : r.renderBy t false f with
      | error e => exact ⟨⟨_, rfl⟩, e2, e3⟩
      | ok a =>
        dsimp only
        obtain ⟨g1, g2, g3⟩ := ih n1 (fun i e he => split_tail hsplit i e he) (Nat.lt_of_succ_lt_succ hlt)
          (w.table le q).2 (sound_table le hs q) (settled_table le hs h1)
          (fun w' hw' => hfail w' (hw'.trans e3))
        exact ⟨g1, g2.trans e2, g3.trans e3⟩

namespace CommandRun

/-- The identifier of a request's table has one of the marks. -/
theorem id_marked {s : Site n k} {ts : TableSite k} {r : Request} (a : TableReq) (hacc : Acceptable s.fs r)
    (w : Store (Table k)) : ∃ mark, (r.mode, mark) ∈ marks ∧
      tableId (ts.gridId r.input) (ts.target r.latMap r.lonMap) mark = (tblRunOf s ts r a).id := by
  by_contra hc
  have hno : NoTable ({ w with conf := { w.conf with vars := [((tblRunOf s ts r a).id, .table [])] } }) ts r := by
    intro mark hm h
    exact hc ⟨mark, hm, by simpa [Dict.keys] using h⟩
  exact id_of (s := s) (a := a) hacc hno (by simp [Dict.keys])

theorem there_settled {s : Site n k} {ts : TableSite k} {r : Request} {a : TableReq} (hacc : Acceptable s.fs r)
    {w : Store (Table k)} {t : Table k} (h : TableThere w ts r a.dir t) : Settled w (qOf s ts r a) t := by
  obtain ⟨hd, f, hf, h⟩ := h
  obtain ⟨mark, hm, hid⟩ := id_marked (ts := ts) a hacc w
  refine ⟨a.dir, f, hd, ?_, hf, ?_⟩
  · show (if a.dir = [] then none else some a.dir) = some a.dir
    rw [if_neg hd]
  · have := h mark hm
    rw [hid] at this
    exact this

/-- a table that is there and one that is not are for different grids. -/
theorem there_apart {s : Site n k} {ts : TableSite k} {r : Request} {a : TableReq} {input2 : Str}
    (hacc : Acceptable s.fs r) {w : Store (Table k)} {t : Table k} (h : TableThere w ts r a.dir t)
    (h2 : NoTable w ts { r with input := input2 }) : GridsApart ts r.input input2 := by
  intro he
  obtain ⟨-, f, -, h⟩ := h
  obtain ⟨mark, hm, -⟩ := id_marked (ts := ts) a hacc w
  refine h2 mark hm ?_
  have hv := (h mark hm).vars
  have e : tableId (ts.gridId input2) (ts.target r.latMap r.lonMap) mark =
      tableId (ts.gridId r.input) (ts.target r.latMap r.lonMap) mark := by
    unfold tableId
    rw [he]
  show tableId (ts.gridId input2) (ts.target r.latMap r.lonMap) mark ∈ _
  rw [e]
  exact Dict.get?_isSome_iff.1 (by rw [hv]; rfl)

theorem cannot_create_two {s : Site n k} {ts : TableSite k} {r : Request} {a : TableReq} {input2 : Str}
    (hacc : Acceptable s.fs r) (le : Str → Str → Bool) {w : Store (Table k)}
    (h : NoTable w ts { r with input := input2 }) (hc : CannotCreate s ts a) :
    ∃ c, c ≠ 3000 ∧ w.table le (qOf2 s ts r input2 a) = (.error (.app c), w) :=
  cannot_create (ts := { ts with
    gridId := fun _ => ts.gridId input2
    method := fun p mode la lo _ => ts.method p mode la lo input2 }) hacc le (w := w) h hc

theorem failure_app (c : Nat) (h : c ≠ 3000) : Spec.failure (.app c) = .ok 1 := by
  unfold Spec.failure
  split
  · rename_i h'; injection h' with h'; exact absurd h' h
  · rfl
  · rfl
  · rename_i _ h' _; exact absurd rfl (h' c)

/-- The jobs of the PCRaster loop split where the fields do. -/
theorem jobs_split {r : RunIn n m k} {values : Dict Step (Field n m)} {change : Option Step} {n1 : Nat}
    (h : ∀ (i : Nat) e, (gridLoop change false values)[i]? = some e → (e.2.2 = true ↔ n1 ≤ i)) (i : Nat)
    (e : Str × Field n m × Bool) (he : (pcrJobs r values change)[i]? = some e) : e.2.2 = true ↔ n1 ≤ i := by
  unfold pcrJobs at he
  rw [List.getElem?_map, List.getElem?_zipIdx, Option.map_map, Option.map_eq_some_iff] at he
  obtain ⟨x, hx, rfl⟩ := he
  exact h i x hx

theorem jobs_length {r : RunIn n m k} {values : Dict Step (Field n m)} {change : Option Step} :
    (pcrJobs r values change).length = values.length := by
  unfold pcrJobs
  rw [List.length_map, List.length_zipIdx, gridLoop_length]

/-- The table of the second file is missing: PCRaster. -/
theorem second_missing_pcr (le : Str → Str → Bool) (global template : Dict Str TblEntry) (ne : NumExpr) (s : Site n k)
    (ts : TableSite k) (w : Store (Table k)) (hw : Reached le global template w)
    (items : List (Spec.Written × Str × JVal)) (r : Spec.Request) (input2 : Str)
    (hcom : Spec.TwoFileCommand s items r input2) (hfmt : r.format = "pcraster".toList) (a : TableReq)
    (hask : TableAsked s ts items a) (t t2 : Table k) (hthere : TableThere w ts r a.dir t)
    (hnew2 : NoTable w ts { r with input := input2 }) (hcan : CannotCreate s ts a) (n1 : Nat)
    (hsplit : ∃ x, (Spec.runOf s r).settingsTwo (s.second input2).2 = .ok x ∧ SplitsAt ne x n1)
    (files : List (Str × (Fin k → Num))) (hne : files ≠ [])
    (hrun : CommandRun.run ne (withTables s input2 t t2) (argv items) = .ended (.ok 0) files) :
    (runIn le ne s ts w (argv items)).1 = .ended (.ok 1) (files.take n1) ∧
      (runIn le ne s ts w (argv items)).2.files = w.files ∧ (runIn le ne s ts w (argv items)).2.conf = w.conf := by
  have hap := there_apart (a := a) hcom.acceptable hthere hnew2
  obtain ⟨x, hset, values, change, hf, hlt, hsp⟩ := hsplit
  rw [two_file_command_settings ne (withTables s input2 t t2) items r input2 (with_tables hcom t t2) hfmt,
    run_tables hap] at hrun
  change (match ({ Spec.runOf s r with table := t, table2 := t2 } : FileIn n k).pcrasterTwo ne (s.second input2).2 with
    | .ok files => _
    | .error e => _) = _ at hrun
  rw [table_core_two le ne s ts w items r input2 hcom a hask hfmt, hset]
  cases hp : ({ Spec.runOf s r with table := t, table2 := t2 } : FileIn n k).pcrasterTwo ne (s.second input2).2 with
  | error e =>
    rw [hp] at hrun
    dsimp only at hrun
    injection hrun with h1 h2
    exact absurd h2.symm hne
  | ok files0 =>
    rw [hp] at hrun
    dsimp only at hrun
    injection hrun with _ hfiles
    unfold FileIn.pcrasterTwo at hp
    rw [settings_tables, hset] at hp
    change ({ x with table := t, table2 := t2 } : RunIn n _ k).pcraster ne = _ at hp
    rw [pcraster_pure ne x t t2 values change hf] at hp
    obtain ⟨c, w', hc, hl, g1, g2⟩ := loop_stops le x _ (qOf s ts r a) (qOf2 s ts r input2 a) t t2 _ n1
      (jobs_split hsp) (by rw [jobs_length]; exact hlt) files0 hp w hw.sound (there_settled hcom.acceptable hthere)
      (fun w' hw' => cannot_create_two hcom.acceptable le (by
        intro mark hm
        rw [hw']
        exact hnew2 mark hm) hcan)
    unfold pcrIn endPcr
    dsimp only
    rw [pcrasterIn_eq le ne w _ _ x values change hf, hl]
    refine ⟨?_, g1, g2⟩
    dsimp only
    rw [status_eq, failure_app c hc, ← hfiles, ← List.map_take]
    simp only [join_folder]

/-- The table of the first file is missing: PCRaster. -/
theorem first_missing_pcr (le : Str → Str → Bool) (ne : NumExpr) (s : Site n k)
    (ts : TableSite k) (w : Store (Table k)) (items : List (Spec.Written × Str × JVal)) (r : Spec.Request) (input2 : Str)
    (hcom : Spec.TwoFileCommand s items r input2) (hfmt : r.format = "pcraster".toList) (a : TableReq)
    (hask : TableAsked s ts items a) (hnew : NoTable w ts r) (hcan : CannotCreate s ts a) (n1 : Nat) (hpos : 0 < n1)
    (hsplit : ∃ x, (Spec.runOf s r).settingsTwo (s.second input2).2 = .ok x ∧ SplitsAt ne x n1) :
    runIn le ne s ts w (argv items) = (.ended (.ok 1) [], w) := by
  obtain ⟨x, hset, values, change, hf, hlt, hsp⟩ := hsplit
  rw [table_core_two le ne s ts w items r input2 hcom a hask hfmt, hset]
  obtain ⟨c, hc, hl⟩ := cannot_create (s := s) (a := a) hcom.acceptable le hnew hcan
  have hsp' := jobs_split (r := x) hsp
  have hlen : 0 < (pcrJobs x values change).length := by rw [jobs_length]; omega
  unfold pcrIn endPcr
  dsimp only
  rw [pcrasterIn_eq le ne w _ _ x values change hf]
  cases hj : pcrJobs x values change with
  | nil => rw [hj] at hlen; cases hlen
  | cons e l =>
    rw [hj] at hsp'
    have h0 := hsp' 0 e rfl
    obtain ⟨name, fld, b⟩ := e
    have hb : b = false := by
      cases b with
      | false => rfl
      | true => exact absurd (h0.1 rfl) (by omega)
    subst hb
    unfold RunIn.mapLoop
    rw [if_neg (by decide), hl]
    dsimp only
    rw [status_eq, failure_app c hc]
    rfl

/-- The jobs of the netCDF loop. -/
theorem records_split {values : Dict Step (Field n m)} {change : Option Step} {n1 : Nat}
    (h : ∀ (i : Nat) e, (gridLoop change false values)[i]? = some e → (e.2.2 = true ↔ n1 ≤ i)) (i : Nat)
    (e : Int × Field n m × Bool)
    (he : ((gridLoop change false values).map fun p => (p.1.endStep, p.2.1, p.2.2))[i]? = some e) :
    e.2.2 = true ↔ n1 ≤ i := by
  rw [List.getElem?_map, Option.map_eq_some_iff] at he
  obtain ⟨x, hx, rfl⟩ := he
  exact h i x hx

/-- The run of a netCDF command whose maps fail. -/
theorem nc_in_failed (le : Str → Str → Bool) (ne : NumExpr) (w : Store (Table k)) (q q2 : Lookup k) (x : FileIn n k)
    (y : SecondFile m) (known : Bool) (o : NcOut) (u : RunIn n m k) (hset : x.settingsTwo y = .ok u)
    (h : (∃ e, (u.mapsIn le ne w q q2).error = some e) ∧ (u.mapsIn le ne w q q2).store.files = w.files ∧
      (u.mapsIn le ne w q q2).store.conf = w.conf) :
    (ncIn le ne w q q2 x known o (.ok u)).1 = .ended (.error .attributeError) [] ∧
      (ncIn le ne w q q2 x known o (.ok u)).2.files = w.files ∧
      (ncIn le ne w q q2 x known o (.ok u)).2.conf = w.conf := by
  have hi : ∃ info, (Reader.gribInfo x.file x.reader (infoCmd x.sel)).1 = .ok info := by
    unfold FileIn.settingsTwo at hset
    cases hg : Reader.gribInfo x.file x.reader (infoCmd x.sel) with
    | mk i r1 =>
      rw [hg] at hset
      cases i with
      | error e => cases hset
      | ok info => exact ⟨info, rfl⟩
  obtain ⟨info, hi⟩ := hi
  obtain ⟨⟨e, he⟩, h1, h2⟩ := h
  unfold ncIn
  rw [hi]
  cases known with
  | false => exact ⟨rfl, rfl, rfl⟩
  | true =>
    dsimp only
    rw [he]
    exact ⟨rfl, h1, h2⟩

/-- The table of one of the files is missing: netCDF. -/
theorem missing_nc (le : Str → Str → Bool) (global template : Dict Str TblEntry) (ne : NumExpr) (s : Site n k)
    (ts : TableSite k) (w : Store (Table k)) (hw : Reached le global template w)
    (items : List (Spec.Written × Str × JVal)) (r : Spec.Request) (input2 : Str)
    (hcom : Spec.TwoFileCommand s items r input2) (hfmt : r.format ≠ "pcraster".toList) (a : TableReq)
    (hask : TableAsked s ts items a) (o : NcOut) (hnc : Spec.NcCommand s items r o) (hcan : CannotCreate s ts a)
    (n1 : Nat) (hpos : 0 < n1)
    (hmiss : NoTable w ts r ∨ ∃ t, TableThere w ts r a.dir t ∧ NoTable w ts { r with input := input2 })
    (hsplit : ∃ x, (Spec.runOf s r).settingsTwo (s.second input2).2 = .ok x ∧ SplitsAt ne x n1) :
    (runIn le ne s ts w (argv items)).1 = .ended (.error .attributeError) [] ∧
      (runIn le ne s ts w (argv items)).2.files = w.files ∧ (runIn le ne s ts w (argv items)).2.conf = w.conf := by
  obtain ⟨x, hset, values, change, hf, hlt, hsp⟩ := hsplit
  rw [table_core_nc_two le ne s ts w items r input2 hcom a hask hfmt o hnc]
  have hIn : ∀ w q q2, x.mapsIn le ne w q q2 = x.mapLoop le q q2 (fun x a => (x, a)) w
      ((gridLoop change false values).map fun p => (p.1.endStep, p.2.1, p.2.2)) := by
    intro w q q2
    unfold RunIn.mapsIn
    rw [hf]
  have hsp' := records_split hsp
  have hlen : n1 < ((gridLoop change false values).map fun p => (p.1.endStep, p.2.1, p.2.2)).length := by
    rw [List.length_map, gridLoop_length]; exact hlt
  have := nc_in_failed le ne w (qOf s ts r a) (qOf2 s ts r input2 a) (Spec.runOf s r) _
    (decide (r.format = "netcdf".toList)) o x hset
  rw [hset]
  refine this ?_
  rw [hIn]
  rcases hmiss with hnew | ⟨t, hthere, hnew2⟩
  · obtain ⟨c, hc, hl⟩ := cannot_create (s := s) (a := a) hcom.acceptable le hnew hcan
    generalize ((gridLoop change false values).map fun p => (p.1.endStep, p.2.1, p.2.2)) = l at hsp' hlen
    cases l with
    | nil => cases hlen
    | cons e l =>
      have h0 := hsp' 0 e rfl
      obtain ⟨name, fld, b⟩ := e
      have hb : b = false := by
        cases b with
        | false => rfl
        | true => exact absurd (h0.1 rfl) (by omega)
      subst hb
      unfold RunIn.mapLoop
      rw [if_neg (by decide), hl]
      exact ⟨⟨_, rfl⟩, rfl, rfl⟩
  · exact loop_fails le x _ (qOf s ts r a) (qOf2 s ts r input2 a) t _ n1 hsp' hlen w hw.sound
      (there_settled hcom.acceptable hthere)
      (fun w' hw' => cannot_create_two hcom.acceptable le (by
        intro mark hm
        rw [hw']
        exact hnew2 mark hm) hcan)

end CommandRun

namespace CommandRun

/-- The fields of a command on two files. -/
theorem split_command_accumulation (ne : NumExpr) (s : Site n k) (r : Spec.Request) (input2 : Str)
    (f : Num → Num) (mv : ℚ) (file : List (GMsg (Arr n))) (hfile : s.grib r.input = (file, true))
    {m : Nat} (file2 : List (GMsg (Arr m))) (hfile2 : s.second input2 = ⟨m, ⟨file2, true⟩⟩)
    (hup : r.shortName.map Char.toUpper ≠ r.shortName) (a : Int) (half forced : Bool)
    (hagg : r.aggr = some ⟨a, "accumulation", half, forced⟩) (hpos : 0 < a)
    (p : SelPar) (hp : p = ⟨r.shortName, r.level, r.dataTime, r.dataDate, r.member⟩)
    (E : Int) (hE : Spec.LastStep file p E) (hreg : Spec.StepsDiffer file p) (start hi : Int)
    (hst : start = r.tstart.getD 0) (hhi : hi = Spec.windowEnd r.tend E)
    (sel : List (GMsg (Arr n))) (hsel : sel = Spec.taken file p (max 0 (start - a)) hi) (hne : sel ≠ [])
    (sel2 : List (GMsg (Arr m))) (hsel2 : sel2 = Spec.taken file2 p (max 0 (start - a)) hi)
    (nj : Int) (hnj : ∀ q ∈ sel, q.nj = nj) (hdiff : (sel.map GMsg.endStep).Nodup)
    (nj2 : Int) (hnj2 : ∀ q ∈ sel2, q.nj = nj2) (hdiff2 : (sel2.map GMsg.endStep).Nodup)
    (hmv : ∀ q ∈ sel, q.missingValue = .fin mv) (hdate : ∀ q ∈ sel, (Spec.reference q).isSome = true)
    (hdate2 : ∀ q ∈ sel2, (Spec.reference q).isSome = true)
    (hconv : Means ne (r.conversion.map fun c => some c.1) f)
    (c : GMsg (Arr m)) (hc : c ∈ sel2) (hcmin : ∀ q ∈ sel2, c.endStep ≤ q.endStep)
    (hse : c.startStep ≤ c.endStep) (h0 : 0 ≤ c.endStep) (hend : c.endStep + a < hi)
    (hcur : ∀ t, Spec.InRange (Spec.firstEnd start a) c.startStep a t →
      (∃ q ∈ sel, q.endStep = t) ∧ (t - a = 0 ∨ ∃ q ∈ sel, q.endStep = t - a))
    (hcur2 : ∀ t, Spec.InRange (c.endStep + a) hi a t →
      (∃ q ∈ sel2, q.endStep = t) ∧ (t - a = 0 ∨ ∃ q ∈ sel2, q.endStep = t - a))
    : ∃ x, (Spec.runOf s r).settingsTwo (s.second input2).2 = .ok x ∧
      SplitsAt ne x (rangeList (firstEnd start a) (c.startStep + 1) a).length := by
  subst hp
  have e1 : (Spec.runOf s r).file = file := congrArg Prod.fst hfile
  have e2 : (Spec.runOf s r).indexable = true := congrArg Prod.snd hfile
  rw [hfile2]
  exact split_accumulation ne (Spec.runOf s r) ⟨file2, true⟩ f mv e2 rfl hup _ hagg rfl a rfl hpos E
    (by rw [e1]; exact hE) (by rw [e1]; exact hreg) start hi hst hhi sel (by rw [e1]; exact hsel) hne sel2 hsel2 nj hnj
    hdiff nj2 hnj2 hdiff2 hmv hdate hdate2 hconv c hc hcmin hse h0 hend hcur hcur2

end CommandRun

namespace CommandRun

/-- The fields of a command on two files. -/
theorem split_command_average (ne : NumExpr) (s : Site n k) (r : Spec.Request) (input2 : Str)
    (f : Num → Num) (mv : ℚ) (file : List (GMsg (Arr n))) (hfile : s.grib r.input = (file, true))
    {m : Nat} (file2 : List (GMsg (Arr m))) (hfile2 : s.second input2 = ⟨m, ⟨file2, true⟩⟩)
    (hup : r.shortName.map Char.toUpper ≠ r.shortName) (a : Int) (forced : Bool)
    (hagg : r.aggr = some ⟨a, "average", false, forced⟩) (hpos : 0 < a)
    (hinst : ∀ q ∈ file, String.ofList q.stepType ≠ "accum")
    (p : SelPar) (hp : p = ⟨r.shortName, r.level, r.dataTime, r.dataDate, r.member⟩)
    (E : Int) (hE : Spec.LastStep file p E) (hreg : Spec.StepsDiffer file p) (start hi : Int)
    (hst : start = r.tstart.getD 0) (hstart : start ≠ 0) (hhi : hi = Spec.windowEnd r.tend E)
    (sel : List (GMsg (Arr n))) (hsel : sel = Spec.taken file p (max 0 (start - a)) hi)
    (sel2 : List (GMsg (Arr m))) (hsel2 : sel2 = Spec.taken file2 p (max 0 (start - a)) hi)
    (nj : Int) (hnj : ∀ q ∈ sel, q.nj = nj) (hdiff : (sel.map GMsg.endStep).Nodup)
    (nj2 : Int) (hnj2 : ∀ q ∈ sel2, q.nj = nj2) (hdiff2 : (sel2.map GMsg.endStep).Nodup)
    (hmv : ∀ q ∈ sel, q.missingValue = .fin mv) (hdate : ∀ q ∈ sel, (Spec.reference q).isSome = true)
    (hdate2 : ∀ q ∈ sel2, (Spec.reference q).isSome = true)
    (hconv : Means ne (r.conversion.map fun c => some c.1) f)
    (c : GMsg (Arr m)) (hc : c ∈ sel2) (hcmin : ∀ q ∈ sel2, c.endStep ≤ q.endStep)
    (hse : c.startStep ≤ c.endStep) (h0 : 0 ≤ c.endStep) (hend : c.endStep + a < hi)
    (hex : ∃ q ∈ sel, c.startStep ≤ q.endStep) (hex2 : ∃ q ∈ sel2, hi ≤ q.endStep)
    : ∃ x, (Spec.runOf s r).settingsTwo (s.second input2).2 = .ok x ∧
      SplitsAt ne x (rangeList (start) (c.startStep + 1) a).length := by
  subst hp
  have e1 : (Spec.runOf s r).file = file := congrArg Prod.fst hfile
  have e2 : (Spec.runOf s r).indexable = true := congrArg Prod.snd hfile
  rw [hfile2]
  exact split_average ne (Spec.runOf s r) ⟨file2, true⟩ f mv e2 rfl hup _ hagg rfl rfl a rfl hpos
    (by rw [e1]; exact hinst) E (by rw [e1]; exact hE) (by rw [e1]; exact hreg) start hi hst hstart hhi sel
    (by rw [e1]; exact hsel) sel2 hsel2 nj hnj
    hdiff nj2 hnj2 hdiff2 hmv hdate hdate2 hconv c hc hcmin hse h0 hend hex hex2

end CommandRun

/-! ## C180 -/

/-- **C180** (violated), accumulation: the table of the first file is there, that of the second is not and cannot be
created. The command ends with status 1, but the maps of the first file have been written; nothing else has changed. -/
theorem second_table_missing_accumulation (le : Str → Str → Bool) (global template : Dict Str TblEntry) (ne : NumExpr)
    (s : Site n k) (ts : TableSite k) (w : Store (Table k)) (hw : Reached le global template w)
    (items : List (Spec.Written × Str × JVal))
    (r : Spec.Request) (input2 : Str) (hcom : Spec.TwoFileCommand s items r input2)
    (hfmt : r.format = "pcraster".toList) (hpre : r.namePrefix ≠ [] ∧ r.namePrefix.head? ≠ some '/')
    (b : TableReq) (hask : TableAsked s ts items b) (t : Table k) (hthere : TableThere w ts r b.dir t) (hfit : Fits t n)
    (hnew2 : NoTable w ts { r with input := input2 }) (hcan : CannotCreate s ts b)
    (f : Num → Num) (mv : ℚ) (file : List (GMsg (Arr n))) (hfile : s.grib r.input = (file, true))
    {m : Nat} (file2 : List (GMsg (Arr m))) (hfile2 : s.second input2 = ⟨m, ⟨file2, true⟩⟩)
    (hup : r.shortName.map Char.toUpper ≠ r.shortName) (a : Int) (half forced : Bool)
    (hagg : r.aggr = some ⟨a, "accumulation", half, forced⟩) (hpos : 0 < a)
    (p : SelPar) (hp : p = ⟨r.shortName, r.level, r.dataTime, r.dataDate, r.member⟩)
    (E : Int) (hE : Spec.LastStep file p E) (hreg : Spec.StepsDiffer file p) (start hi : Int)
    (hst : start = r.tstart.getD 0) (hhi : hi = Spec.windowEnd r.tend E)
    (sel : List (GMsg (Arr n))) (hsel : sel = Spec.taken file p (max 0 (start - a)) hi) (hne : sel ≠ [])
    (sel2 : List (GMsg (Arr m))) (hsel2 : sel2 = Spec.taken file2 p (max 0 (start - a)) hi)
    (nj : Int) (hnj : ∀ q ∈ sel, q.nj = nj) (hdiff : (sel.map GMsg.endStep).Nodup)
    (nj2 : Int) (hnj2 : ∀ q ∈ sel2, q.nj = nj2) (hdiff2 : (sel2.map GMsg.endStep).Nodup)
    (hmv : ∀ q ∈ sel, q.missingValue = .fin mv) (hdate : ∀ q ∈ sel, (Spec.reference q).isSome = true)
    (hdate2 : ∀ q ∈ sel2, (Spec.reference q).isSome = true)
    (hconv : Means ne (r.conversion.map fun c => some c.1) f)
    (c : GMsg (Arr m)) (hc : c ∈ sel2) (hcmin : ∀ q ∈ sel2, c.endStep ≤ q.endStep)
    (hse : c.startStep ≤ c.endStep) (h0 : 0 ≤ c.endStep) (hend : c.endStep + a < hi)
    (hcur : ∀ t, Spec.InRange (Spec.firstEnd start a) c.startStep a t →
      (∃ q ∈ sel, q.endStep = t) ∧ (t - a = 0 ∨ ∃ q ∈ sel, q.endStep = t - a))
    (hcur2 : ∀ t, Spec.InRange (c.endStep + a) hi a t →
      (∃ q ∈ sel2, q.endStep = t) ∧ (t - a = 0 ∨ ∃ q ∈ sel2, q.endStep = t - a))
    : ∃ (files : List (Str × (Fin k → Num))) (n1 : Nat),
      (runIn le ne s ts w (argv items)).1 = .ended (.ok 1) files ∧ files.length = n1 ∧
      (∀ j : Nat, j < n1 ↔ firstEnd start a + j * a ≤ c.startStep) ∧
      (runIn le ne s ts w (argv items)).2.files = w.files ∧ (runIn le ne s ts w (argv items)).2.conf = w.conf ∧
      ∀ (j : Nat) u, u = firstEnd start a + j * a → u ≤ c.startStep →
        ∃ D, Spec.AccumulatedFrom mv f sel forced r.unitTime a u D ∧
          files[j]? = some (Spec.folder r.outDir ++ pcrName r.namePrefix r.fmap r.ext (j + 1), fun i =>
            shown (s.clone r.clone).1 (s.clone r.clone).2
              (finalCell (r.correction.map fun q => (s.heights q.1 q.2.1 q.2.2).1) (cellOf t (s.mvOf r.latMap)
                (Spec.cutField ((r.conversion.map Prod.snd).getD false) D) i) i) i) := by
  have hsplit := split_command_accumulation ne s r input2 f mv file hfile file2 hfile2 hup a half forced hagg hpos p hp E hE hreg start hi hst hhi sel
    hsel hne sel2 hsel2 nj hnj hdiff nj2 hnj2 hdiff2 hmv hdate hdate2 hconv c hc hcmin hse h0 hend hcur hcur2
  have hap := there_apart (a := b) hcom.acceptable hthere hnew2
  obtain ⟨t2, hfit2⟩ : ∃ t2 : Table k, Fits t2 m := ⟨.gribNearest [], (by intro e he; cases he)⟩
  obtain ⟨files, n1, n2, h1, h2, h3, h4, h5, h6⟩ := two_file_command_accumulation_run
    ne (withTables s input2 t t2) items r input2 (with_tables hcom t t2) hfmt hpre f mv file hfile file2 hfile2
    hup a half forced hagg hpos p hp E hE hreg start hi hst hhi sel hsel hne sel2 hsel2 nj hnj hdiff nj2 hnj2
    hdiff2 hmv hdate hdate2 hconv t (first_table hap t t2) hfit t2 (second_table t t2) hfit2 c hc hcmin hse h0
    hend hcur hcur2
  have h4 := (h4 0).2 (by simpa using hend.le)
  have hfiles : files ≠ [] := by
    intro h
    rw [h, List.length_nil] at h2
    omega
  have hn1 : n1 = (rangeList (firstEnd start a) (c.startStep + 1) a).length := by
    by_contra hn
    have hj := fun j => (h3 j).trans (range_files (lo := firstEnd start a) (hi := c.startStep) hpos j).symm
    rcases Nat.lt_or_gt_of_ne hn with h | h
    · exact Nat.lt_irrefl _ ((hj n1).2 h)
    · exact Nat.lt_irrefl _ ((hj _).1 h)
  rw [← hn1] at hsplit
  obtain ⟨g1, g2, g3⟩ := second_missing_pcr le global template ne s ts w hw items r input2 hcom hfmt b hask t t2 hthere
    hnew2 hcan n1 hsplit files hfiles h1
  refine ⟨files.take n1, n1, g1, by rw [List.length_take]; omega, h3, g2, g3, fun j u hu hle => ?_⟩
  obtain ⟨D, k1, k2⟩ := h5 j u hu hle
  refine ⟨D, k1, ?_⟩
  rw [List.getElem?_take, if_pos ((h3 j).2 (by rw [← hu]; exact hle))]
  exact k2

/-- **C180** (violated), average. -/
theorem second_table_missing_average (le : Str → Str → Bool) (global template : Dict Str TblEntry) (ne : NumExpr)
    (s : Site n k) (ts : TableSite k) (w : Store (Table k)) (hw : Reached le global template w)
    (items : List (Spec.Written × Str × JVal))
    (r : Spec.Request) (input2 : Str) (hcom : Spec.TwoFileCommand s items r input2)
    (hfmt : r.format = "pcraster".toList) (hpre : r.namePrefix ≠ [] ∧ r.namePrefix.head? ≠ some '/')
    (b : TableReq) (hask : TableAsked s ts items b) (t : Table k) (hthere : TableThere w ts r b.dir t) (hfit : Fits t n)
    (hnew2 : NoTable w ts { r with input := input2 }) (hcan : CannotCreate s ts b)
    (f : Num → Num) (mv : ℚ) (file : List (GMsg (Arr n))) (hfile : s.grib r.input = (file, true))
    {m : Nat} (file2 : List (GMsg (Arr m))) (hfile2 : s.second input2 = ⟨m, ⟨file2, true⟩⟩)
    (hup : r.shortName.map Char.toUpper ≠ r.shortName) (a : Int) (forced : Bool)
    (hagg : r.aggr = some ⟨a, "average", false, forced⟩) (hpos : 0 < a)
    (hinst : ∀ q ∈ file, String.ofList q.stepType ≠ "accum")
    (p : SelPar) (hp : p = ⟨r.shortName, r.level, r.dataTime, r.dataDate, r.member⟩)
    (E : Int) (hE : Spec.LastStep file p E) (hreg : Spec.StepsDiffer file p) (start hi : Int)
    (hst : start = r.tstart.getD 0) (hstart : start ≠ 0) (hhi : hi = Spec.windowEnd r.tend E)
    (sel : List (GMsg (Arr n))) (hsel : sel = Spec.taken file p (max 0 (start - a)) hi)
    (sel2 : List (GMsg (Arr m))) (hsel2 : sel2 = Spec.taken file2 p (max 0 (start - a)) hi)
    (nj : Int) (hnj : ∀ q ∈ sel, q.nj = nj) (hdiff : (sel.map GMsg.endStep).Nodup)
    (nj2 : Int) (hnj2 : ∀ q ∈ sel2, q.nj = nj2) (hdiff2 : (sel2.map GMsg.endStep).Nodup)
    (hmv : ∀ q ∈ sel, q.missingValue = .fin mv) (hdate : ∀ q ∈ sel, (Spec.reference q).isSome = true)
    (hdate2 : ∀ q ∈ sel2, (Spec.reference q).isSome = true)
    (hconv : Means ne (r.conversion.map fun c => some c.1) f)
    (c : GMsg (Arr m)) (hc : c ∈ sel2) (hcmin : ∀ q ∈ sel2, c.endStep ≤ q.endStep)
    (hse : c.startStep ≤ c.endStep) (h0 : 0 ≤ c.endStep) (hend : c.endStep + a < hi)
    (hex : ∃ q ∈ sel, c.startStep ≤ q.endStep) (hex2 : ∃ q ∈ sel2, hi ≤ q.endStep)
    : ∃ (files : List (Str × (Fin k → Num))) (n1 : Nat),
      (runIn le ne s ts w (argv items)).1 = .ended (.ok 1) files ∧ files.length = n1 ∧
      (∀ j : Nat, j < n1 ↔ start + j * a ≤ c.startStep) ∧
      (runIn le ne s ts w (argv items)).2.files = w.files ∧ (runIn le ne s ts w (argv items)).2.conf = w.conf ∧
      ∀ (j : Nat) u, u = start + j * a → u ≤ c.startStep →
        ∃ D, Spec.MeanFrom mv f sel a u D ∧
          files[j]? = some (Spec.folder r.outDir ++ pcrName r.namePrefix r.fmap r.ext (j + 1), fun i =>
            shown (s.clone r.clone).1 (s.clone r.clone).2
              (finalCell (r.correction.map fun q => (s.heights q.1 q.2.1 q.2.2).1) (cellOf t (s.mvOf r.latMap)
                (Spec.cutField ((r.conversion.map Prod.snd).getD false) D) i) i) i) := by
  have hsplit := split_command_average ne s r input2 f mv file hfile file2 hfile2 hup a forced hagg hpos hinst p hp E hE hreg start hi hst hstart hhi sel
    hsel sel2 hsel2 nj hnj hdiff nj2 hnj2 hdiff2 hmv hdate hdate2 hconv c hc hcmin hse h0 hend hex hex2
  have hap := there_apart (a := b) hcom.acceptable hthere hnew2
  obtain ⟨t2, hfit2⟩ : ∃ t2 : Table k, Fits t2 m := ⟨.gribNearest [], (by intro e he; cases he)⟩
  obtain ⟨files, n1, n2, h1, h2, h3, h4, h5, h6⟩ := two_file_command_average_run
    ne (withTables s input2 t t2) items r input2 (with_tables hcom t t2) hfmt hpre f mv file hfile file2 hfile2
    hup a forced hagg hpos hinst p hp E hE hreg start hi hst hstart hhi sel hsel sel2 hsel2 nj hnj hdiff nj2 hnj2
    hdiff2 hmv hdate hdate2 hconv t (first_table hap t t2) hfit t2 (second_table t t2) hfit2 c hc hcmin hse h0
    hend hex hex2
  have h4 := (h4 0).2 (by simpa using hend.le)
  have hfiles : files ≠ [] := by
    intro h
    rw [h, List.length_nil] at h2
    omega
  have hn1 : n1 = (rangeList (start) (c.startStep + 1) a).length := by
    by_contra hn
    have hj := fun j => (h3 j).trans (range_files (lo := start) (hi := c.startStep) hpos j).symm
    rcases Nat.lt_or_gt_of_ne hn with h | h
    · exact Nat.lt_irrefl _ ((hj n1).2 h)
    · exact Nat.lt_irrefl _ ((hj _).1 h)
  rw [← hn1] at hsplit
  obtain ⟨g1, g2, g3⟩ := second_missing_pcr le global template ne s ts w hw items r input2 hcom hfmt b hask t t2 hthere
    hnew2 hcan n1 hsplit files hfiles h1
  refine ⟨files.take n1, n1, g1, by rw [List.length_take]; omega, h3, g2, g3, fun j u hu hle => ?_⟩
  obtain ⟨D, k1, k2⟩ := h5 j u hu hle
  refine ⟨D, k1, ?_⟩
  rw [List.getElem?_take, if_pos ((h3 j).2 (by rw [← hu]; exact hle))]
  exact k2

/-- **C180**, accumulation: the table of the first file is not there (that of the second may be) and cannot be
created: status 1, nothing is written, nothing changes. -/
theorem first_table_missing_accumulation (le : Str → Str → Bool) (ne : NumExpr)
    (s : Site n k) (ts : TableSite k) (w : Store (Table k))
    (items : List (Spec.Written × Str × JVal))
    (r : Spec.Request) (input2 : Str) (hcom : Spec.TwoFileCommand s items r input2)
    (hfmt : r.format = "pcraster".toList)
    (b : TableReq) (hask : TableAsked s ts items b) (hnew : NoTable w ts r) (hcan : CannotCreate s ts b)
    (f : Num → Num) (mv : ℚ) (file : List (GMsg (Arr n))) (hfile : s.grib r.input = (file, true))
    {m : Nat} (file2 : List (GMsg (Arr m))) (hfile2 : s.second input2 = ⟨m, ⟨file2, true⟩⟩)
    (hup : r.shortName.map Char.toUpper ≠ r.shortName) (a : Int) (half forced : Bool)
    (hagg : r.aggr = some ⟨a, "accumulation", half, forced⟩) (hpos : 0 < a)
    (p : SelPar) (hp : p = ⟨r.shortName, r.level, r.dataTime, r.dataDate, r.member⟩)
    (E : Int) (hE : Spec.LastStep file p E) (hreg : Spec.StepsDiffer file p) (start hi : Int)
    (hst : start = r.tstart.getD 0) (hhi : hi = Spec.windowEnd r.tend E)
    (sel : List (GMsg (Arr n))) (hsel : sel = Spec.taken file p (max 0 (start - a)) hi) (hne : sel ≠ [])
    (sel2 : List (GMsg (Arr m))) (hsel2 : sel2 = Spec.taken file2 p (max 0 (start - a)) hi)
    (nj : Int) (hnj : ∀ q ∈ sel, q.nj = nj) (hdiff : (sel.map GMsg.endStep).Nodup)
    (nj2 : Int) (hnj2 : ∀ q ∈ sel2, q.nj = nj2) (hdiff2 : (sel2.map GMsg.endStep).Nodup)
    (hmv : ∀ q ∈ sel, q.missingValue = .fin mv) (hdate : ∀ q ∈ sel, (Spec.reference q).isSome = true)
    (hdate2 : ∀ q ∈ sel2, (Spec.reference q).isSome = true)
    (hconv : Means ne (r.conversion.map fun c => some c.1) f)
    (c : GMsg (Arr m)) (hc : c ∈ sel2) (hcmin : ∀ q ∈ sel2, c.endStep ≤ q.endStep)
    (hse : c.startStep ≤ c.endStep) (h0 : 0 ≤ c.endStep) (hend : c.endStep + a < hi)
    (hcur : ∀ t, Spec.InRange (Spec.firstEnd start a) c.startStep a t →
      (∃ q ∈ sel, q.endStep = t) ∧ (t - a = 0 ∨ ∃ q ∈ sel, q.endStep = t - a))
    (hcur2 : ∀ t, Spec.InRange (c.endStep + a) hi a t →
      (∃ q ∈ sel2, q.endStep = t) ∧ (t - a = 0 ∨ ∃ q ∈ sel2, q.endStep = t - a))
    (hsome : firstEnd start a ≤ c.startStep) : runIn le ne s ts w (argv items) = (.ended (.ok 1) [], w) :=
  first_missing_pcr le ne s ts w items r input2 hcom hfmt b hask hnew hcan _
    ((range_files hpos 0).2 (by simpa using hsome))
    (split_command_accumulation ne s r input2 f mv file hfile file2 hfile2 hup a half forced hagg hpos p hp E hE hreg start hi hst hhi sel
    hsel hne sel2 hsel2 nj hnj hdiff nj2 hnj2 hdiff2 hmv hdate hdate2 hconv c hc hcmin hse h0 hend hcur hcur2)

/-- **C180**, average: the table of the first file is missing. -/
theorem first_table_missing_average (le : Str → Str → Bool) (ne : NumExpr)
    (s : Site n k) (ts : TableSite k) (w : Store (Table k))
    (items : List (Spec.Written × Str × JVal))
    (r : Spec.Request) (input2 : Str) (hcom : Spec.TwoFileCommand s items r input2)
    (hfmt : r.format = "pcraster".toList)
    (b : TableReq) (hask : TableAsked s ts items b) (hnew : NoTable w ts r) (hcan : CannotCreate s ts b)
    (f : Num → Num) (mv : ℚ) (file : List (GMsg (Arr n))) (hfile : s.grib r.input = (file, true))
    {m : Nat} (file2 : List (GMsg (Arr m))) (hfile2 : s.second input2 = ⟨m, ⟨file2, true⟩⟩)
    (hup : r.shortName.map Char.toUpper ≠ r.shortName) (a : Int) (forced : Bool)
    (hagg : r.aggr = some ⟨a, "average", false, forced⟩) (hpos : 0 < a)
    (hinst : ∀ q ∈ file, String.ofList q.stepType ≠ "accum")
    (p : SelPar) (hp : p = ⟨r.shortName, r.level, r.dataTime, r.dataDate, r.member⟩)
    (E : Int) (hE : Spec.LastStep file p E) (hreg : Spec.StepsDiffer file p) (start hi : Int)
    (hst : start = r.tstart.getD 0) (hstart : start ≠ 0) (hhi : hi = Spec.windowEnd r.tend E)
    (sel : List (GMsg (Arr n))) (hsel : sel = Spec.taken file p (max 0 (start - a)) hi)
    (sel2 : List (GMsg (Arr m))) (hsel2 : sel2 = Spec.taken file2 p (max 0 (start - a)) hi)
    (nj : Int) (hnj : ∀ q ∈ sel, q.nj = nj) (hdiff : (sel.map GMsg.endStep).Nodup)
    (nj2 : Int) (hnj2 : ∀ q ∈ sel2, q.nj = nj2) (hdiff2 : (sel2.map GMsg.endStep).Nodup)
    (hmv : ∀ q ∈ sel, q.missingValue = .fin mv) (hdate : ∀ q ∈ sel, (Spec.reference q).isSome = true)
    (hdate2 : ∀ q ∈ sel2, (Spec.reference q).isSome = true)
    (hconv : Means ne (r.conversion.map fun c => some c.1) f)
    (c : GMsg (Arr m)) (hc : c ∈ sel2) (hcmin : ∀ q ∈ sel2, c.endStep ≤ q.endStep)
    (hse : c.startStep ≤ c.endStep) (h0 : 0 ≤ c.endStep) (hend : c.endStep + a < hi)
    (hex : ∃ q ∈ sel, c.startStep ≤ q.endStep) (hex2 : ∃ q ∈ sel2, hi ≤ q.endStep)
    (hsome : start ≤ c.startStep) : runIn le ne s ts w (argv items) = (.ended (.ok 1) [], w) :=
  first_missing_pcr le ne s ts w items r input2 hcom hfmt b hask hnew hcan _
    ((range_files hpos 0).2 (by simpa using hsome))
    (split_command_average ne s r input2 f mv file hfile file2 hfile2 hup a forced hagg hpos hinst p hp E hE hreg start hi hst hstart hhi sel
    hsel sel2 hsel2 nj hnj hdiff nj2 hnj2 hdiff2 hmv hdate hdate2 hconv c hc hcmin hse h0 hend hex hex2)

/-- **C180** (violated), accumulation: one of the two tables is missing and cannot be created, output is netCDF (or a
format that is not known): the command crashes, no data set is stored and the tables do not change. -/
theorem table_missing_netcdf_accumulation (le : Str → Str → Bool) (global template : Dict Str TblEntry) (ne : NumExpr)
    (s : Site n k) (ts : TableSite k) (w : Store (Table k)) (hw : Reached le global template w)
    (items : List (Spec.Written × Str × JVal))
    (r : Spec.Request) (input2 : Str) (hcom : Spec.TwoFileCommand s items r input2)
    (hfmt : r.format ≠ "pcraster".toList) (o : NcOut) (hnc : Spec.NcCommand s items r o)
    (b : TableReq) (hask : TableAsked s ts items b) (hcan : CannotCreate s ts b)
    (hmiss : NoTable w ts r ∨ ∃ t, TableThere w ts r b.dir t ∧ NoTable w ts { r with input := input2 })
    (f : Num → Num) (mv : ℚ) (file : List (GMsg (Arr n))) (hfile : s.grib r.input = (file, true))
    {m : Nat} (file2 : List (GMsg (Arr m))) (hfile2 : s.second input2 = ⟨m, ⟨file2, true⟩⟩)
    (hup : r.shortName.map Char.toUpper ≠ r.shortName) (a : Int) (half forced : Bool)
    (hagg : r.aggr = some ⟨a, "accumulation", half, forced⟩) (hpos : 0 < a)
    (p : SelPar) (hp : p = ⟨r.shortName, r.level, r.dataTime, r.dataDate, r.member⟩)
    (E : Int) (hE : Spec.LastStep file p E) (hreg : Spec.StepsDiffer file p) (start hi : Int)
    (hst : start = r.tstart.getD 0) (hhi : hi = Spec.windowEnd r.tend E)
    (sel : List (GMsg (Arr n))) (hsel : sel = Spec.taken file p (max 0 (start - a)) hi) (hne : sel ≠ [])
    (sel2 : List (GMsg (Arr m))) (hsel2 : sel2 = Spec.taken file2 p (max 0 (start - a)) hi)
    (nj : Int) (hnj : ∀ q ∈ sel, q.nj = nj) (hdiff : (sel.map GMsg.endStep).Nodup)
    (nj2 : Int) (hnj2 : ∀ q ∈ sel2, q.nj = nj2) (hdiff2 : (sel2.map GMsg.endStep).Nodup)
    (hmv : ∀ q ∈ sel, q.missingValue = .fin mv) (hdate : ∀ q ∈ sel, (Spec.reference q).isSome = true)
    (hdate2 : ∀ q ∈ sel2, (Spec.reference q).isSome = true)
    (hconv : Means ne (r.conversion.map fun c => some c.1) f)
    (c : GMsg (Arr m)) (hc : c ∈ sel2) (hcmin : ∀ q ∈ sel2, c.endStep ≤ q.endStep)
    (hse : c.startStep ≤ c.endStep) (h0 : 0 ≤ c.endStep) (hend : c.endStep + a < hi)
    (hcur : ∀ t, Spec.InRange (Spec.firstEnd start a) c.startStep a t →
      (∃ q ∈ sel, q.endStep = t) ∧ (t - a = 0 ∨ ∃ q ∈ sel, q.endStep = t - a))
    (hcur2 : ∀ t, Spec.InRange (c.endStep + a) hi a t →
      (∃ q ∈ sel2, q.endStep = t) ∧ (t - a = 0 ∨ ∃ q ∈ sel2, q.endStep = t - a))
    (hsome : firstEnd start a ≤ c.startStep) :
    (runIn le ne s ts w (argv items)).1 = .ended (.error .attributeError) [] ∧
      (runIn le ne s ts w (argv items)).2.files = w.files ∧ (runIn le ne s ts w (argv items)).2.conf = w.conf :=
  missing_nc le global template ne s ts w hw items r input2 hcom hfmt b hask o hnc hcan _
    ((range_files hpos 0).2 (by simpa using hsome)) hmiss
    (split_command_accumulation ne s r input2 f mv file hfile file2 hfile2 hup a half forced hagg hpos p hp E hE hreg start hi hst hhi sel
    hsel hne sel2 hsel2 nj hnj hdiff nj2 hnj2 hdiff2 hmv hdate hdate2 hconv c hc hcmin hse h0 hend hcur hcur2)

/-- **C180** (violated), average, netCDF. -/
theorem table_missing_netcdf_average (le : Str → Str → Bool) (global template : Dict Str TblEntry) (ne : NumExpr)
    (s : Site n k) (ts : TableSite k) (w : Store (Table k)) (hw : Reached le global template w)
    (items : List (Spec.Written × Str × JVal))
    (r : Spec.Request) (input2 : Str) (hcom : Spec.TwoFileCommand s items r input2)
    (hfmt : r.format ≠ "pcraster".toList) (o : NcOut) (hnc : Spec.NcCommand s items r o)
    (b : TableReq) (hask : TableAsked s ts items b) (hcan : CannotCreate s ts b)
    (hmiss : NoTable w ts r ∨ ∃ t, TableThere w ts r b.dir t ∧ NoTable w ts { r with input := input2 })
    (f : Num → Num) (mv : ℚ) (file : List (GMsg (Arr n))) (hfile : s.grib r.input = (file, true))
    {m : Nat} (file2 : List (GMsg (Arr m))) (hfile2 : s.second input2 = ⟨m, ⟨file2, true⟩⟩)
    (hup : r.shortName.map Char.toUpper ≠ r.shortName) (a : Int) (forced : Bool)
    (hagg : r.aggr = some ⟨a, "average", false, forced⟩) (hpos : 0 < a)
    (hinst : ∀ q ∈ file, String.ofList q.stepType ≠ "accum")
    (p : SelPar) (hp : p = ⟨r.shortName, r.level, r.dataTime, r.dataDate, r.member⟩)
    (E : Int) (hE : Spec.LastStep file p E) (hreg : Spec.StepsDiffer file p) (start hi : Int)
    (hst : start = r.tstart.getD 0) (hstart : start ≠ 0) (hhi : hi = Spec.windowEnd r.tend E)
    (sel : List (GMsg (Arr n))) (hsel : sel = Spec.taken file p (max 0 (start - a)) hi)
    (sel2 : List (GMsg (Arr m))) (hsel2 : sel2 = Spec.taken file2 p (max 0 (start - a)) hi)
    (nj : Int) (hnj : ∀ q ∈ sel, q.nj = nj) (hdiff : (sel.map GMsg.endStep).Nodup)
    (nj2 : Int) (hnj2 : ∀ q ∈ sel2, q.nj = nj2) (hdiff2 : (sel2.map GMsg.endStep).Nodup)
    (hmv : ∀ q ∈ sel, q.missingValue = .fin mv) (hdate : ∀ q ∈ sel, (Spec.reference q).isSome = true)
    (hdate2 : ∀ q ∈ sel2, (Spec.reference q).isSome = true)
    (hconv : Means ne (r.conversion.map fun c => some c.1) f)
    (c : GMsg (Arr m)) (hc : c ∈ sel2) (hcmin : ∀ q ∈ sel2, c.endStep ≤ q.endStep)
    (hse : c.startStep ≤ c.endStep) (h0 : 0 ≤ c.endStep) (hend : c.endStep + a < hi)
    (hex : ∃ q ∈ sel, c.startStep ≤ q.endStep) (hex2 : ∃ q ∈ sel2, hi ≤ q.endStep)
    (hsome : start ≤ c.startStep) :
    (runIn le ne s ts w (argv items)).1 = .ended (.error .attributeError) [] ∧
      (runIn le ne s ts w (argv items)).2.files = w.files ∧ (runIn le ne s ts w (argv items)).2.conf = w.conf :=
  missing_nc le global template ne s ts w hw items r input2 hcom hfmt b hask o hnc hcan _
    ((range_files hpos 0).2 (by simpa using hsome)) hmiss
    (split_command_average ne s r input2 f mv file hfile file2 hfile2 hup a forced hagg hpos hinst p hp E hE hreg start hi hst hstart hhi sel
    hsel sel2 hsel2 nj hnj hdiff nj2 hnj2 hdiff2 hmv hdate hdate2 hconv c hc hcmin hse h0 hend hex hex2)

namespace Demo

/-- A table for the grid of the first file only: every cell takes the second point. -/
def halfTables : Store (Table 250) :=
  ⟨⟨[(tableId "grid".toList "target".toList "scipy_nearest".toList, .table "a.npy.gz".toList)],
    [(tableId "grid".toList "target".toList "scipy_nearest".toList, .table "a.npy.gz".toList)],
    some (.obj [(tableId "grid".toList "target".toList "scipy_nearest".toList, .table "a.npy.gz".toList)])⟩,
    [(("/t/".toList, "a.npy.gz".toList), .whole (.nearest fun _ => 1))], []⟩

theorem half_names : NpyNames [(tableId "grid".toList "target".toList "scipy_nearest".toList,
    TblEntry.table "a.npy.gz".toList)] := by
  intro q hq f hf
  rw [List.mem_singleton] at hq
  subst hq
  injection hf with hf
  subst hf
  exact Or.inl (by decide)

theorem half_reached (le : Str → Str → Bool) : Reached le [] [] halfTables :=
  ⟨npyNames_nil, npyNames_nil, List.nodup_nil, halfTables, [], rfl,
    ⟨half_names, half_names, (by intro u hu; cases hu; exact half_names)⟩,
    ⟨by simp [halfTables, Dict.keys], (by intro u hu; cases hu; simp [Dict.keys])⟩, rfl⟩

theorem half_there (aggr : Option AggrOpts) : TableThere halfTables pairTables (twoReq (some 30) aggr) "/t/".toList
    (.nearest fun _ => 1) := by
  refine ⟨by decide, "a.npy.gz".toList, by decide, fun mark hm => ?_⟩
  have hmark : mark = "scipy_nearest".toList := by
    have : ∀ q ∈ marks, q.1 = "nearest".toList → q.2 = "scipy_nearest".toList := by decide
    exact this _ hm rfl
  subst hmark
  refine ⟨?_, ?_, ?_, by simp [halfTables, Dict.keys], ?_⟩
  · show Dict.get? [(("/t/".toList, "a.npy.gz".toList), _)] _ = _
    simp [Dict.get?]
  · show Dict.get? [(tableId "grid".toList "target".toList "scipy_nearest".toList, _)] _ = _
    have : tableId (pairTables.gridId (twoReq (some 30) aggr).input)
        (pairTables.target (twoReq (some 30) aggr).latMap (twoReq (some 30) aggr).lonMap) "scipy_nearest".toList =
      tableId "grid".toList "target".toList "scipy_nearest".toList := rfl
    rw [this]
    simp [Dict.get?]
  · show Dict.get? [(tableId "grid".toList "target".toList "scipy_nearest".toList, _)] _ = _
    have : tableId (pairTables.gridId (twoReq (some 30) aggr).input)
        (pairTables.target (twoReq (some 30) aggr).latMap (twoReq (some 30) aggr).lonMap) "scipy_nearest".toList =
      tableId "grid".toList "target".toList "scipy_nearest".toList := rfl
    rw [this]
    simp [Dict.get?]
  · refine ⟨_, rfl, by simp [Dict.keys], ?_⟩
    have : tableId (pairTables.gridId (twoReq (some 30) aggr).input)
        (pairTables.target (twoReq (some 30) aggr).latMap (twoReq (some 30) aggr).lonMap) "scipy_nearest".toList =
      tableId "grid".toList "target".toList "scipy_nearest".toList := rfl
    rw [this]
    simp [Dict.get?]

theorem half_not_there (r : Request) (hr : r.mode = "nearest".toList) :
    NoTable halfTables pairTables { r with input := "after.grb".toList } := by
  intro mark hm
  have hmark : mark = "scipy_nearest".toList := by
    have : ∀ q ∈ marks, q.1 = "nearest".toList → q.2 = "scipy_nearest".toList := by decide
    exact this _ hm hr
  subst hmark
  show tableId "fine".toList "target".toList _ ∉ _
  decide

/-- the command of `pairItems` without `-B`. -/
theorem look_asked (cmd : CmdFile) (hcmd : inJson cmd.base .intertableDir = .null) (one : List (GMsg (Arr 2)))
    (two : List (GMsg (Arr 1))) (mask : Option (Fin 250 → Bool)) :
    TableAsked (pairSite cmd one two mask) pairTables twoItems ⟨false, "/t/".toList, none, false⟩ where
  create := Or.inr ⟨absent_append (rain_absent _ (by decide +kernel)) (by decide), rfl⟩
  parallel := Or.inr ⟨absent_append (rain_absent _ (by decide +kernel)) (by decide), rfl⟩
  file := by
    intro c _
    refine ⟨?_, rfl⟩
    show Chosen twoItems cmd.base _ _ _ _
    refine Or.inr ⟨absent_append (rain_absent _ (by decide +kernel)) (by decide), ?_, ?_⟩
    · rw [hcmd]; exact Or.inl (by decide +kernel)
    · rw [hcmd]; rfl

theorem look_command (ag : JAggr × JVal) (ao : AggrOpts) (h : Spec.AggrIn (some ag) (some ao)) (one : List (GMsg (Arr 2)))
    (two : List (GMsg (Arr 1))) (mask : Option (Fin 250 → Bool)) :
    Spec.TwoFileCommand (pairSite (twoCmd (.str "30".toList) (some ag)) one two mask) twoItems
      (twoReq (some 30) (some ao)) "after.grb".toList := by
  refine with_second (items := rainItems) ?_ "after.grb".toList (by decide) (by decide)
  obtain ⟨h1, h2, ⟨cmd, h3, h4, h5⟩, h6, h7⟩ := grid_command (some ag) (some ao) h
  exact ⟨h1, h2, ⟨cmd, h3, h4, { h5 with }⟩, h6, { h7 with }⟩

/-- C180: two maps of the first file and status 1. -/
example (le : Str → Str → Bool) : ∃ files : List (Str × (Fin 250 → Num)), (runIn le (fun _ => none)
      (pairSite (twoCmd (.str "30".toList) sixHours) (early3 id) (rest id) none) pairTables halfTables (argv twoItems)).1 =
        .ended (.ok 1) files ∧ files.length = 2 := by
  obtain ⟨files, n1, h1, h2, h3, -⟩ := second_table_missing_accumulation le [] [] (fun _ => none)
    (pairSite (twoCmd (.str "30".toList) sixHours) (early3 id) (rest id) none) pairTables halfTables (half_reached le)
    twoItems (twoReq (some 30) (some accOpts)) "after.grb".toList (look_command _ _ aggr_in _ _ _)
    rfl (by decide) ⟨false, "/t/".toList, none, false⟩ (look_asked _ rfl _ _ _) _ (half_there _)
    (by intro c; exact (by decide : 1 ≤ 2)) (half_not_there _ rfl) (.inl rfl)
    id (-9999) (early3 id) rfl (rest id) rfl (by decide +kernel) 6 false false rfl (by decide) _ rfl 18
    ⟨by decide +kernel, by decide +kernel⟩
    (steps_of (by decide +kernel) (by decide +kernel)) 12 30 rfl rfl _ rfl
    (fun h => absurd (congrArg List.length h) (by decide +kernel)) _ rfl 10
    (by decide +kernel) (by decide +kernel) 5 (by decide +kernel) (by decide +kernel) (by decide +kernel)
    (by decide +kernel) (by decide +kernel) (.inl ⟨.inr rfl, rfl⟩)
    _ (List.mem_filter.2 ⟨List.mem_cons_self, by decide +kernel⟩) (by decide +kernel) (by decide)
    (by decide) (by decide)
    (by
      rintro t ⟨j, rfl, hj⟩
      have hf : firstEnd 12 6 = 12 := rfl
      rw [hf] at hj ⊢
      change _ ≤ (18 : Int) at hj
      have : j = 0 ∨ j = 1 := by omega
      rcases this with rfl | rfl
      · exact ⟨by decide +kernel, .inr (by decide +kernel)⟩
      · exact ⟨by decide +kernel, .inr (by decide +kernel)⟩)
    (by
      rintro t ⟨j, rfl, hj⟩
      change (18 : Int) + 6 + _ ≤ 30 at hj
      have : j = 0 ∨ j = 1 := by omega
      rcases this with rfl | rfl
      · exact ⟨by decide +kernel, .inr (by decide +kernel)⟩
      · exact ⟨by decide +kernel, .inr (by decide +kernel)⟩)
  refine ⟨files, h1, h2.trans ?_⟩
  have e1 := (h3 1).2 (by decide)
  have e2 : ¬ 2 < n1 := fun h => absurd ((h3 2).1 h) (by decide)
  omega

/-- C180, average: one map of the first file and status 1; nothing when its table is missing too. -/
example (le : Str → Str → Bool) : (∃ files : List (Str × (Fin 250 → Num)), (runIn le (fun _ => none)
      (pairSite (twoCmd (.str "30".toList) meanHours) (joined none).file (later (-9999) (.fin 7)).file none) pairTables
        halfTables (argv twoItems)).1 = .ended (.ok 1) files ∧ files.length = 1) ∧
    runIn le (fun _ => none)
      (pairSite (twoCmd (.str "30".toList) meanHours) (joined none).file (later (-9999) (.fin 7)).file none) pairTables
        bare (argv twoItems) = (.ended (.ok 1) [], bare) := by
  constructor
  · obtain ⟨files, n1, h1, h2, h3, -⟩ := second_table_missing_average le [] [] (fun _ => none)
      (pairSite (twoCmd (.str "30".toList) meanHours) (joined none).file (later (-9999) (.fin 7)).file none) pairTables
      halfTables (half_reached le) twoItems
      (twoReq (some 30) (some meanOpts)) "after.grb".toList (look_command _ _ aggr_mean _ _ _)
      rfl (by decide) ⟨false, "/t/".toList, none, false⟩ (look_asked _ rfl _ _ _) _ (half_there _)
      (by intro c; exact (by decide : 1 ≤ 2)) (half_not_there _ rfl) (.inl rfl)
      id (-9999) (joined none).file rfl (later (-9999) (.fin 7)).file rfl (by decide +kernel) 6 false rfl
      (by decide) (by decide +kernel) _ rfl 12 ⟨by decide +kernel, by decide +kernel⟩
      (steps_of (by decide +kernel) (by decide +kernel)) 12 30 rfl (by decide) rfl _ rfl _ rfl 10
      (by decide +kernel) (by decide +kernel) 5 (by decide +kernel) (by decide +kernel) (by decide +kernel)
      (by decide +kernel) (by decide +kernel) (.inl ⟨.inr rfl, rfl⟩)
      _ (List.mem_filter.2 ⟨List.mem_cons_self, by decide +kernel⟩) (by decide +kernel) (by decide)
      (by decide) (by decide) (by decide +kernel) (by decide +kernel)
    refine ⟨files, h1, h2.trans ?_⟩
    have e1 := (h3 0).2 (by decide)
    have e2 : ¬ 1 < n1 := fun h => absurd ((h3 1).1 h) (by decide)
    omega
  · exact first_table_missing_average le (fun _ => none)
      (pairSite (twoCmd (.str "30".toList) meanHours) (joined none).file (later (-9999) (.fin 7)).file none) pairTables
      bare twoItems
      (twoReq (some 30) (some meanOpts)) "after.grb".toList (look_command _ _ aggr_mean _ _ _)
      rfl ⟨false, "/t/".toList, none, false⟩ (look_asked _ rfl _ _ _) (bare_no_table _ _) (.inl rfl)
      id (-9999) (joined none).file rfl (later (-9999) (.fin 7)).file rfl (by decide +kernel) 6 false rfl
      (by decide) (by decide +kernel) _ rfl 12 ⟨by decide +kernel, by decide +kernel⟩
      (steps_of (by decide +kernel) (by decide +kernel)) 12 30 rfl (by decide) rfl _ rfl _ rfl 10
      (by decide +kernel) (by decide +kernel) 5 (by decide +kernel) (by decide +kernel) (by decide +kernel)
      (by decide +kernel) (by decide +kernel) (.inl ⟨.inr rfl, rfl⟩)
      _ (List.mem_filter.2 ⟨List.mem_cons_self, by decide +kernel⟩) (by decide +kernel) (by decide)
      (by decide) (by decide) (by decide +kernel) (by decide +kernel) (by decide)

theorem look_nc_command (ag : JAggr × JVal) (ao : AggrOpts) (h : Spec.AggrIn (some ag) (some ao)) (one : List (GMsg (Arr 2)))
    (two : List (GMsg (Arr 1))) (mask : Option (Fin 250 → Bool)) :
    Spec.TwoFileCommand (pairSite ((gridNcSite ag).commands []) one two mask) twoItems (gridNcReq ao)
      "after.grb".toList := by
  refine with_second (items := rainItems) ?_ "after.grb".toList (by decide) (by decide)
  obtain ⟨h1, h2, ⟨cmd, h3, h4, h5⟩, h6, h7⟩ := grid_nc_command ag ao h
  exact ⟨h1, h2, ⟨cmd, h3, h4, { h5 with }⟩, h6, { h7 with }⟩

theorem look_nc_asked (ag : JAggr × JVal) (ao : AggrOpts) (one : List (GMsg (Arr 2)))
    (two : List (GMsg (Arr 1))) (mask : Option (Fin 250 → Bool)) :
    Spec.NcCommand (pairSite ((gridNcSite ag).commands []) one two mask) twoItems (gridNcReq ao) (valuesNcAsked ao) := by
  intro cmd _
  obtain ⟨cmd, h1, -⟩ := rain_command.file
  have h := grid_nc_asked ag ao cmd h1
  exact {
    path := h.path
    longName := h.longName
    unit := h.unit
    float := rfl
    overflow := rfl
    stepUnits := chosen_append h.stepUnits (by decide)
    validMin := chosen_append h.validMin (by decide)
    validMax := chosen_append h.validMax (by decide)
    valueFormat := chosen_append h.valueFormat (by decide)
    offset := chosen_append h.offset (by decide)
    scaleFactor := chosen_append h.scaleFactor (by decide) }

theorem half_there_nc (ao : AggrOpts) : TableThere halfTables pairTables (gridNcReq ao) "/t/".toList
    (.nearest fun _ => 1) := by
  obtain ⟨h1, f, h2, h3⟩ := half_there (some ao)
  exact ⟨h1, f, h2, fun mark hm => h3 mark hm⟩

/-- C180, netCDF: the second table, or both, are missing. -/
example (le : Str → Str → Bool) :
    (runIn le (fun _ => none)
      (pairSite ((gridNcSite (⟨.int 6, .str "accumulation".toList, none⟩, .null)).commands []) (gridFile.take 2) laterH.file
        (some fun _ => false)) pairTables halfTables (argv twoItems)).1 = .ended (.error .attributeError) [] ∧
    (runIn le (fun _ => none)
      (pairSite ((gridNcSite (⟨.int 6, .str "average".toList, none⟩, .null)).commands []) (gridFile.take 2) laterH.file
        (some fun _ => false)) pairTables bare (argv twoItems)).1 = .ended (.error .attributeError) [] := by
  constructor
  · exact (table_missing_netcdf_accumulation le [] []
      (fun _ => none) _ pairTables halfTables (half_reached le) twoItems
      (gridNcReq accOpts) "after.grb".toList (look_nc_command _ _ aggr_in _ _ _)
      (fun h => absurd (congrArg List.length h) (by decide)) _ (look_nc_asked _ accOpts _ _ _)
      ⟨false, "/t/".toList, none, false⟩ (look_asked _ rfl _ _ _) (.inl rfl)
      (.inr ⟨_, half_there_nc _, half_not_there _ rfl⟩)
      id (-9999) (gridFile.take 2) rfl laterH.file rfl (by decide +kernel) 6 false false
      rfl (by decide) gridSel rfl 12 ⟨by decide +kernel, by decide +kernel⟩ (steps_of (by decide +kernel) (by decide +kernel))
      12 30 rfl rfl _ joined_taken (fun h => absurd (congrArg List.length h) (by decide +kernel)) _ rfl 10
      (by decide +kernel) (by decide +kernel) 5 (by decide +kernel) (by decide +kernel)
      (by decide +kernel) (by decide +kernel) (by decide +kernel) (.inl ⟨.inr rfl, rfl⟩)
      (sixH 5 18 (-9999) fun _ => .fin 7)
      (List.mem_filter.2 ⟨List.mem_cons_self, by decide +kernel⟩) (by decide +kernel) (by decide) (by decide) (by decide)
      grid_ends joined_ends2 (by decide)).1
  · exact (table_missing_netcdf_average le [] []
      (fun _ => none) _ pairTables bare (bare_reached le) twoItems
      (gridNcReq meanOpts) "after.grb".toList (look_nc_command _ _ aggr_mean _ _ _)
      (fun h => absurd (congrArg List.length h) (by decide)) _ (look_nc_asked _ meanOpts _ _ _)
      ⟨false, "/t/".toList, none, false⟩ (look_asked _ rfl _ _ _) (.inl rfl)
      (.inl (bare_no_table _ _))
      id (-9999) (gridFile.take 2) rfl laterH.file rfl (by decide +kernel) 6 false
      rfl (by decide) (by decide +kernel) gridSel rfl 12 ⟨by decide +kernel, by decide +kernel⟩
      (steps_of (by decide +kernel) (by decide +kernel))
      12 30 rfl (by decide) rfl _ joined_taken _ rfl 10
      (by decide +kernel) (by decide +kernel) 5 (by decide +kernel) (by decide +kernel)
      (by decide +kernel) (by decide +kernel) (by decide +kernel) (.inl ⟨.inr rfl, rfl⟩)
      (sixH 5 18 (-9999) fun _ => .fin 7)
      (List.mem_filter.2 ⟨List.mem_cons_self, by decide +kernel⟩) (by decide +kernel) (by decide) (by decide) (by decide)
      (by decide +kernel) (by decide +kernel) (by decide)).1

end Demo

end PyG2P
