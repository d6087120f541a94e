import Verif.Model.TwoFiles
import Verif.Props.FileRun
import Verif.Props.PipelineTwo

/-! # C137–C139 — two input files -/

namespace PyG2P
open Spec TableApply Converter Aggregator Reader
variable {n m k : Nat}

namespace Spec

/-- `D` is the amount of the `a` hours before `t` from the messages `sel`: `(converted value at t − converted value at
t − a) · unitTime / a`, masked where the field at `t − a` is. At step 0 the field is zero if it is forced or missing. -/
def AccumulatedFrom (mv : ℚ) (f : Num → Num) (sel : List (GMsg (Arr n))) (forceZero : Bool) (unitTime a t : Int)
    (D : Arr n) : Prop :=
  ∃ (mc : GMsg (Arr n)) (vp : Arr n), mc ∈ sel ∧ mc.endStep = t ∧
    (if t = a ∧ (forceZero = true ∨ ∀ m ∈ sel, m.endStep ≠ 0) then ∀ i, vp.data i = 0 ∧ vp.masked i = false
     else ∃ mp ∈ sel, mp.endStep = t - a ∧ vp = convertedField mv f mp.values) ∧
    ∀ i, D.data i = ((convertedField mv f mc.values).data i - vp.data i) * Num.ofInt unitTime / Num.ofInt a ∧
      D.masked i = vp.masked i

/-- `D` is the mean over the hours `t − a + 1, ..., t` of the converted field of the first of the messages `sel` that
ends at the hour or after it, without a mask. -/
def MeanFrom (mv : ℚ) (f : Num → Num) (sel : List (GMsg (Arr n))) (a t : Int) (D : Arr n) : Prop :=
  ∃ F : Int → GMsg (Arr n),
    (∀ h, t - a < h → h ≤ t → F h ∈ sel ∧ h ≤ (F h).endStep ∧ ∀ m ∈ sel, h ≤ m.endStep → (F h).endStep ≤ m.endStep) ∧
    ∀ i, D.data i = ((List.range a.toNat).map fun (y : Nat) =>
        (convertedField mv f (F (t - a + 1 + (y : Int))).values).data i).sum / Num.ofInt a ∧
      D.masked i = false

end Spec

section
variable {first : Messages n} {ms sel : List (GMsg (Arr n))} (hperm : ms.Perm sel)
  (hmap : first.map (fun e => (e.1.startStep, e.1.endStep, e.1.resolution, e.1.level, e.2)) =
    ms.map fun m => (m.startStep, m.endStep, m.nj, m.level, m.values))
include hperm hmap

theorem accumulated_from {mv : ℚ} {f : Num → Num} {fz : Bool} {u a t : Int} {D : Arr n}
    (h : AccumulatedField mv f first fz u a t D) : AccumulatedFrom mv f sel fz u a t D := by
  obtain ⟨vc, vp, h1, h2, h3⟩ := h
  obtain ⟨mc, m1, m2, rfl⟩ := fieldAt_file hperm hmap t vc h1
  refine ⟨mc, vp, m1, m2, ?_, h3⟩
  have hno : ¬ Avail first 0 ↔ ∀ m ∈ sel, m.endStep ≠ 0 := by
    rw [avail_file hperm hmap]
    push Not
    rfl
  simp only [hno] at h2
  split at h2
  · rename_i hc
    rw [if_pos hc]
    exact h2
  · rename_i hc
    rw [if_neg hc]
    obtain ⟨w, hw, rfl⟩ := h2
    obtain ⟨mp, p1, p2, rfl⟩ := fieldAt_file hperm hmap _ w hw
    exact ⟨mp, p1, p2, rfl⟩

theorem mean_from (hne : sel ≠ []) {mv : ℚ} {f : Num → Num} {a t : Int} {D : Arr n}
    (h : MeanField mv f first a t D) : MeanFrom mv f sel a t D := by
  obtain ⟨F, g1, g2⟩ := h
  obtain ⟨mt, -⟩ := List.exists_mem_of_ne_nil _ hne
  have hval : ∀ h, t - a < h → h ≤ t → ∃ m, m ∈ sel ∧ h ≤ m.endStep ∧
      (∀ m' ∈ sel, h ≤ m'.endStep → m.endStep ≤ m'.endStep) ∧ m.values = F h := by
    intro h ha1 ha2
    obtain ⟨u, ⟨hu1, hu2, hu3⟩, hu4⟩ := g1 h ha1 ha2
    obtain ⟨m, p1, p2, p3⟩ := fieldAt_file hperm hmap u _ hu4
    refine ⟨m, p1, p2 ▸ hu2, ?_, p3⟩
    intro m' hm' hle'
    rw [p2]
    exact hu3 _ ((avail_file hperm hmap _).2 ⟨m', hm', rfl⟩) hle'
  classical
  refine ⟨fun h => if hc : t - a < h ∧ h ≤ t then (hval h hc.1 hc.2).choose else mt, ?_, ?_⟩
  · intro h ha1 ha2
    dsimp only
    rw [dif_pos ⟨ha1, ha2⟩]
    obtain ⟨q1, q2, q3, -⟩ := (hval h ha1 ha2).choose_spec
    exact ⟨q1, q2, q3⟩
  · intro i
    obtain ⟨g2a, g2b⟩ := g2 i
    refine ⟨?_, g2b⟩
    rw [g2a]
    congr 2
    refine List.map_congr_left fun y hy => ?_
    have hy' := List.mem_range.1 hy
    have hc : t - a < t - a + 1 + (y : Int) ∧ t - a + 1 + (y : Int) ≤ t := by omega
    dsimp only
    rw [dif_pos hc, (hval _ hc.1 hc.2).choose_spec.2.2.2]

theorem key_of_entry (e : Step × Arr n) (he : e ∈ first) :
    ∃ q ∈ sel, q.startStep = e.1.startStep ∧ q.endStep = e.1.endStep := by
  have : (e.1.startStep, e.1.endStep, e.1.resolution, e.1.level, e.2) ∈
      ms.map fun m => (m.startStep, m.endStep, m.nj, m.level, m.values) := by
    rw [← hmap]
    exact List.mem_map.2 ⟨e, he, rfl⟩
  obtain ⟨q, hq, h⟩ := List.mem_map.1 this
  simp only [Prod.mk.injEq] at h
  exact ⟨q, hperm.mem_iff.1 hq, h.1, h.2.1⟩

end

/-! ## reading the first file -/

/-- What the first file gives: messages, missing value, type. -/
theorem first_file (x : FileIn n k) (hidx : x.indexable = true)
    (hup : x.sel.shortName.map Char.toUpper ≠ x.sel.shortName) (E : Int) (hE : LastStep x.file x.sel E) (lo hi : Int)
    (hwin : ∀ step, (StepsDiffer x.file x.sel → step ≠ 0) →
      readerWindow x.tstart x.tend (x.aggr.map AggrOpts.step) step E = (lo, hi))
    (hne : taken x.file x.sel lo hi ≠ []) (nj : Int) (hnj : ∀ q ∈ taken x.file x.sel lo hi, q.nj = nj)
    (hdiff : (taken x.file x.sel lo hi).Pairwise Spec.Differ) (mv : ℚ)
    (hmv : ∀ q ∈ taken x.file x.sel lo hi, q.missingValue = .fin mv)
    (hdate : ∀ q ∈ taken x.file x.sel lo hi, (reference q).isSome = true) :
    ∃ (info : StepsInfo) (t2 : String) (msgs : MsgSet n n) (ms : List (GMsg (Arr n))),
      (∀ (y : SecondFile m), x.settingsTwo y = match x.readSecond y (selectCmd x.sel lo hi) with
        | .error e => .error e
        | .ok msgs2 => .ok (x.assemble info t2 (msgs.append2nd msgs2))) ∧
      info.end_ = E ∧ (∃ q ∈ taken x.file x.sel lo hi, t2 = String.ofList q.stepType) ∧
      msgs.mv = .fin mv ∧ ms.Perm (taken x.file x.sel lo hi) ∧
      msgs.first.map (fun e => (e.1.startStep, e.1.endStep, e.1.resolution, e.1.level, e.2)) =
        ms.map fun q => (q.startStep, q.endStep, q.nj, q.level, q.values) := by
  have hsrc0 : x.reader.src = .index x.sel.perturbation.isSome := by
    unfold FileIn.reader Reader.init
    rw [hidx]
    rfl
  obtain ⟨info, r1, hinfo, hsrc1, hend, hstep⟩ := info_facts x.file x.reader _ hsrc0 x.sel E hE
  obtain ⟨g, r', s, r2, ms, hg, hgne, hin, hall, hsel, hch, hsec, hperm, hfirst⟩ :=
    select_facts x.file r1 _ hsrc1 x.sel lo hi hup hne nj hnj hdiff
  have hw := hwin info.step hstep
  have hms : ms ≠ [] := fun h => hne (by rw [h] at hperm; exact List.nil_perm.1 hperm)
  have hfne : s.first ≠ [] := by
    intro h
    rw [h, List.map_nil] at hfirst
    exact hms (List.map_eq_nil_iff.1 hfirst.symm)
  have hmem : ∀ q ∈ g, ∃ w, x.file[q.2]? = some w ∧ w ∈ taken x.file x.sel lo hi := by
    intro q hq
    obtain ⟨w, hw⟩ := hin q hq
    refine ⟨w, hw, hall (q.1, w) ?_⟩
    unfold msgsOf
    rw [List.mem_filterMap]
    exact ⟨q, hq, by rw [hw]; rfl⟩
  have hgne' : g ≠ [] := by
    rintro rfl
    exact hgne rfl
  obtain ⟨m0, hm0, hfm⟩ := firstMsg_taken hg hgne hin hall
  obtain ⟨q0, hq0⟩ := Option.isSome_iff_exists.1 (hdate m0 hm0)
  have hMv : x.selectedMv r1 (selectCmd x.sel lo hi) = .fin mv := by
    unfold FileIn.selectedMv FileIn.firstMv
    rw [hfm]
    exact hmv m0 hm0
  have hTy : ∃ q ∈ taken x.file x.sel lo hi,
      x.selectedType r1 (selectCmd x.sel lo hi) = String.ofList q.stepType := by
    obtain ⟨q, hq, hqg⟩ : ∃ q, (if 1 < g.length then g[1]? else g[0]?) = some q ∧ q ∈ g := by
      by_cases hl : 1 < g.length
      · rw [if_pos hl]
        exact ⟨_, List.getElem?_eq_getElem hl, List.getElem_mem hl⟩
      · rw [if_neg hl]
        have h0 := List.length_pos_iff.2 hgne'
        exact ⟨_, List.getElem?_eq_getElem h0, List.getElem_mem h0⟩
    obtain ⟨w, hw, hw'⟩ := hmem q hqg
    refine ⟨w, hw', ?_⟩
    unfold FileIn.selectedType
    rw [hg]
    dsimp only
    rw [hq, Option.bind_some, hw]
  obtain ⟨msgs, hi1, hi2, -, hi4, -⟩ := init_ok s.first (x.selectedMv r1 (selectCmd x.sel lo hi)) (x.grid s) s.second hfne
  refine ⟨info, x.selectedType r1 (selectCmd x.sel lo hi), msgs, ms, ?_, hend, hTy, hi4.trans hMv, hperm,
    by rw [hi2]; exact hfirst⟩
  intro y
  unfold FileIn.settingsTwo
  rw [hinfo]
  dsimp only
  rw [hend, hw]
  dsimp only
  rw [hsel]
  dsimp only
  unfold FileIn.firstTime
  rw [hfm]
  dsimp only
  rw [reference_eq hq0]
  dsimp only
  rw [hi1]
  dsimp only
  cases x.readSecond y (selectCmd x.sel lo hi) <;> rfl

/-- What the second file gives. -/
theorem second_file (x : FileIn n k) (y : SecondFile m) (hidx : y.indexable = true)
    (hup : x.sel.shortName.map Char.toUpper ≠ x.sel.shortName) (lo hi : Int)
    (hne : taken y.file x.sel lo hi ≠ []) (nj : Int) (hnj : ∀ q ∈ taken y.file x.sel lo hi, q.nj = nj)
    (hdiff : (taken y.file x.sel lo hi).Pairwise Spec.Differ)
    (hdate : ∀ q ∈ taken y.file x.sel lo hi, (reference q).isSome = true) :
    ∃ (msgs : MsgSet m m) (ms : List (GMsg (Arr m))), x.readSecond y (selectCmd x.sel lo hi) = .ok msgs ∧
      ms.Perm (taken y.file x.sel lo hi) ∧
      msgs.first.map (fun e => (e.1.startStep, e.1.endStep, e.1.resolution, e.1.level, e.2)) =
        ms.map (fun q => (q.startStep, q.endStep, q.nj, q.level, q.values)) ∧
      msgs.firstStep ∈ Dict.keys msgs.first ∧ ∀ q ∈ Dict.keys msgs.first, msgs.firstStep.endStep ≤ q.endStep := by
  have hsrc : (Reader.init y.indexable x.sel.perturbation.isSome ⟨0, [], [], false⟩).src =
      .index x.sel.perturbation.isSome := by
    unfold Reader.init
    rw [hidx]
    rfl
  obtain ⟨g, r', s, r2, ms, hg, hgne, hin, hall, hsel, hch, hsec, hperm, hfirst⟩ :=
    select_facts y.file _ _ hsrc x.sel lo hi hup hne nj hnj hdiff
  have hms : ms ≠ [] := fun h => hne (by rw [h] at hperm; exact List.nil_perm.1 hperm)
  have hfne : s.first ≠ [] := by
    intro h
    rw [h, List.map_nil] at hfirst
    exact hms (List.map_eq_nil_iff.1 hfirst.symm)
  obtain ⟨msgs, h1, h2, -, h4, h5⟩ := (C24_first_step s.first
    (FileIn.firstMv y.file (Reader.init y.indexable x.sel.perturbation.isSome ⟨0, [], [], false⟩) (selectCmd x.sel lo hi))
    ⟨x.gridId2, 0, s.change.map fun c => (x.gridId2, c)⟩ s.second).2 hfne
  rw [← h2] at hfirst h4 h5
  refine ⟨msgs, ms, ?_, hperm, hfirst, h4, h5⟩
  obtain ⟨m0, hm0, hfm⟩ := firstMsg_taken hg hgne hin hall
  obtain ⟨q0, hq0⟩ := Option.isSome_iff_exists.1 (hdate m0 hm0)
  unfold FileIn.readSecond
  dsimp only
  rw [hsel]
  dsimp only
  unfold FileIn.firstTime
  rw [hfm]
  dsimp only
  rw [reference_eq hq0]
  exact h1

/-! ## C137: runs on two files -/

/-- The settings of a run on two files. -/
theorem two_file_settings (x : FileIn n k) (y : SecondFile m) (mv : ℚ)
    (hidx : x.indexable = true) (hidx2 : y.indexable = true)
    (hup : x.sel.shortName.map Char.toUpper ≠ x.sel.shortName) (ao : AggrOpts) (hagg : x.aggr = some ao)
    (a : Int) (ha : ao.step = a)
    (E : Int) (hE : LastStep x.file x.sel E) (hreg : StepsDiffer x.file x.sel) (start hi : Int)
    (hst : start = x.tstart.getD 0) (hhi : hi = windowEnd x.tend E)
    (sel : List (GMsg (Arr n))) (hsel : sel = taken x.file x.sel (max 0 (start - a)) hi) (hne : sel ≠ [])
    (sel2 : List (GMsg (Arr m))) (hsel2 : sel2 = taken y.file x.sel (max 0 (start - a)) hi)
    (nj : Int) (hnj : ∀ q ∈ sel, q.nj = nj) (hdiff : (sel.map GMsg.endStep).Nodup)
    (nj2 : Int) (hnj2 : ∀ q ∈ sel2, q.nj = nj2) (hdiff2 : (sel2.map GMsg.endStep).Nodup)
    (hmv : ∀ q ∈ sel, q.missingValue = .fin mv) (hdate : ∀ q ∈ sel, (reference q).isSome = true)
    (hdate2 : ∀ q ∈ sel2, (reference q).isSome = true) (c : GMsg (Arr m)) (hc : c ∈ sel2)
    (hcmin : ∀ q ∈ sel2, c.endStep ≤ q.endStep) :
    ∃ (info : StepsInfo) (t2 : String) (msgs : MsgSet n n) (msgs2 : MsgSet m m) (ms : List (GMsg (Arr n)))
      (ms2 : List (GMsg (Arr m))), x.settingsTwo y = .ok (x.assemble info t2 (msgs.append2nd msgs2)) ∧
      (x.range info).1 = start ∧ (x.range info).2 = hi ∧ (∃ q ∈ sel, t2 = String.ofList q.stepType) ∧
      msgs.mv = .fin mv ∧ ms.Perm sel ∧
      msgs.first.map (fun e => (e.1.startStep, e.1.endStep, e.1.resolution, e.1.level, e.2)) =
        ms.map (fun q => (q.startStep, q.endStep, q.nj, q.level, q.values)) ∧ ms2.Perm sel2 ∧
      msgs2.first.map (fun e => (e.1.startStep, e.1.endStep, e.1.resolution, e.1.level, e.2)) =
        ms2.map (fun q => (q.startStep, q.endStep, q.nj, q.level, q.values)) ∧
      msgs2.firstStep.startStep = c.startStep ∧ msgs2.firstStep.endStep = c.endStep := by
  subst hsel hsel2
  obtain ⟨info, t2, msgs, ms, hset, hend', ht2, hmvs, hperm, hmap⟩ := first_file (m := m) x hidx hup E hE
    (max 0 (start - a)) hi (fun step h => by
      rw [hagg, hst, hhi, ← ha]
      exact window_aggr x.tstart x.tend ao.step step E (h hreg)) hne nj hnj (differ_of_ends hdiff) mv hmv hdate
  obtain ⟨msgs2, ms2, hset2, hperm2, hmap2, hfs, hfmin⟩ := second_file x y hidx2 hup (max 0 (start - a)) hi
    (List.ne_nil_of_mem hc) nj2 hnj2 (differ_of_ends hdiff2) hdate2
  have hs := hset y
  rw [hset2] at hs
  dsimp only at hs
  have hr := range_eq x info
  rw [hend'] at hr
  refine ⟨info, t2, msgs, msgs2, ms, ms2, hs, by rw [hr, hst], by rw [hr, hhi], ht2, hmvs, hperm, hmap, hperm2, hmap2, ?_⟩
  obtain ⟨e, he, hek⟩ := List.mem_map.1 hfs
  obtain ⟨q, hq, q1, q2⟩ := key_of_entry hperm2 hmap2 e he
  rw [hek] at q1 q2
  obtain ⟨e', he', hek'⟩ := (avail_file hperm2 hmap2 c.endStep).2 ⟨c, hc, rfl⟩
  have h1 := hcmin q hq
  have h2 := hfmin e'.1 (List.mem_map_of_mem (f := (·.1)) he')
  rw [hek'] at h2
  have heq : q.endStep = c.endStep := by omega
  have : q = c := List.inj_on_of_nodup_map hdiff2 hq hc heq
  subst this
  exact ⟨q1.symm, q2.symm⟩

/-- **C137**, accumulation. A command with two input files that can be indexed, aggregating over steps of `a` hours.
The window is that of the first file: from `a` hours before the start asked for up to the end asked for, or to the last
step in the first file. `sel`, `sel2` are the messages taken from the files, `c` that of the second file with the first
end step; they hold the needed steps, and the run ends more than `a` hours after `c`. The intervals that end at `start`,
`start + a`, … up to the start of `c` are made from the messages of the first file with the table and heights of the
first grid, then those that end at `end of c + a`, … up to the end of the run from the messages of the second file with
the table and heights of the second grid. -/
theorem two_file_accumulation_run (ne : NumExpr) (x : FileIn n k) (y : SecondFile m) (f : Num → Num) (mv : ℚ)
    (hidx : x.indexable = true) (hidx2 : y.indexable = true)
    (hup : x.sel.shortName.map Char.toUpper ≠ x.sel.shortName) (ao : AggrOpts) (hagg : x.aggr = some ao)
    (hty : ao.type = "accumulation") (a : Int) (ha : ao.step = a) (hpos : 0 < a)
    (E : Int) (hE : LastStep x.file x.sel E) (hreg : StepsDiffer x.file x.sel) (start hi : Int)
    (hst : start = x.tstart.getD 0) (hhi : hi = windowEnd x.tend E)
    (sel : List (GMsg (Arr n))) (hsel : sel = taken x.file x.sel (max 0 (start - a)) hi) (hne : sel ≠ [])
    (sel2 : List (GMsg (Arr m))) (hsel2 : sel2 = taken y.file x.sel (max 0 (start - a)) hi)
    (nj : Int) (hnj : ∀ q ∈ sel, q.nj = nj) (hdiff : (sel.map GMsg.endStep).Nodup)
    (nj2 : Int) (hnj2 : ∀ q ∈ sel2, q.nj = nj2) (hdiff2 : (sel2.map GMsg.endStep).Nodup)
    (hmv : ∀ q ∈ sel, q.missingValue = .fin mv) (hdate : ∀ q ∈ sel, (reference q).isSome = true)
    (hdate2 : ∀ q ∈ sel2, (reference q).isSome = true) (hconv : Means ne x.conversion f) (hfit : Fits x.table n)
    (hfit2 : Fits x.table2 m) (c : GMsg (Arr m)) (hc : c ∈ sel2) (hcmin : ∀ q ∈ sel2, c.endStep ≤ q.endStep)
    (hse : c.startStep ≤ c.endStep) (h0 : 0 ≤ c.endStep) (hend : c.endStep + a < hi)
    (hcur : ∀ t, InRange (firstEnd start a) c.startStep a t →
      (∃ q ∈ sel, q.endStep = t) ∧ (t - a = 0 ∨ ∃ q ∈ sel, q.endStep = t - a))
    (hcur2 : ∀ t, InRange (c.endStep + a) hi a t →
      (∃ q ∈ sel2, q.endStep = t) ∧ (t - a = 0 ∨ ∃ q ∈ sel2, q.endStep = t - a)) :
    ∃ files n1 n2, x.pcrasterTwo ne y = .ok files ∧ files.length = n1 + n2 ∧
      (∀ j : Nat, j < n1 ↔ firstEnd start a + j * a ≤ c.startStep) ∧
      (∀ j : Nat, j < n2 ↔ c.endStep + a + j * a ≤ hi) ∧
      (∀ (j : Nat) t, t = firstEnd start a + j * a → t ≤ c.startStep →
        ∃ D, AccumulatedFrom mv f sel ao.forceZero x.unitTime a t D ∧
          files[j]? = some (pcrName x.namePrefix x.fmap x.ext (j + 1), fun i => shown x.mask x.mvClone
            (finalCell x.height (cellOf x.table x.mvOut
              (Spec.cutField (x.conversion.isSome && x.cutOff) D) i) i) i)) ∧
      ∀ (j : Nat) t, t = c.endStep + a + j * a → t ≤ hi →
        ∃ D, AccumulatedFrom mv f sel2 ao.forceZero x.unitTime a t D ∧
          files[n1 + j]? = some (pcrName x.namePrefix x.fmap x.ext ((n1 : Int) + j + 1), fun i => shown x.mask x.mvClone
            (finalCell x.height2 (cellOf x.table2 x.mvOut
              (Spec.cutField (x.conversion.isSome && x.cutOff) D) i) i) i) := by
  obtain ⟨info, t2, msgs, msgs2, ms, ms2, hs, hrs, hre, -, hmvs, hperm, hmap, hperm2, hmap2, hcs1, hcs2⟩ :=
    two_file_settings x y mv hidx hidx2 hup ao hagg a ha E hE hreg start hi hst hhi sel hsel hne sel2 hsel2 nj hnj hdiff
      nj2 hnj2 hdiff2 hmv hdate hdate2 c hc hcmin
  have hav := avail_file hperm hmap
  have hav2 := avail_file hperm2 hmap2
  have hfne : msgs.first ≠ [] := by
    intro h
    rw [h, List.map_nil] at hmap
    rw [List.map_eq_nil_iff.1 hmap.symm] at hperm
    exact hne (List.nil_perm.1 hperm)
  have hrun := two_grid_accumulation_run ne (x.assemble info t2 (msgs.append2nd msgs2)) f mv hmvs hconv hfit hfit2
    msgs2.firstStep a rfl (by rw [hcs1, hcs2]; exact hse) (by rw [hcs2]; exact h0)
    (by unfold FileIn.assemble; rw [hagg]; rfl) (by unfold FileIn.assemble; rw [hagg, ← ha]; rfl) hpos
    (by rw [hcs2]; exact lt_of_lt_of_eq hend hre.symm)
    (by unfold FileIn.assemble; rw [hagg, ← hty]; rfl) hfne
    (by
      change ∀ t, InRange (firstEnd (x.range info).1 a) _ a t → _
      rw [hrs, hcs1]
      intro t ht
      obtain ⟨c1, c2⟩ := hcur t ht
      exact ⟨(hav t).2 c1, c2.imp id (hav _).2⟩)
    (by
      change ∀ t, InRange _ (x.range info).2 a t → _
      rw [hre, hcs2]
      intro t ht
      obtain ⟨c1, c2⟩ := hcur2 t ht
      exact ⟨(hav2 t).2 c1, c2.imp id (hav2 _).2⟩)
  obtain ⟨files, n1, n2, h1, h2, h3, h4, h5, h6⟩ := hrun
  change ∀ j : Nat, j < n1 ↔ firstEnd (x.range info).1 a + j * a ≤ _ at h3
  change ∀ j : Nat, j < n2 ↔ _ ≤ (x.range info).2 at h4
  change ∀ (j : Nat) t, t = firstEnd (x.range info).1 a + j * a → _ at h5
  change ∀ (j : Nat) t, _ → t ≤ (x.range info).2 → _ at h6
  rw [hrs, hcs1] at h3 h5
  rw [hre, hcs2] at h4 h6
  have hfz : (x.assemble info t2 (msgs.append2nd msgs2)).ctrl.forceZero = ao.forceZero := by
    unfold FileIn.assemble
    rw [hagg]
    rfl
  rw [hfz] at h5 h6
  refine ⟨files, n1, n2, ?_, h2, h3, h4, ?_, ?_⟩
  · unfold FileIn.pcrasterTwo
    rw [hs]
    exact h1
  · intro j t ht hle
    obtain ⟨D, g1, g2⟩ := h5 j t ht hle
    exact ⟨D, accumulated_from hperm hmap g1, g2⟩
  · intro j t ht hle
    obtain ⟨D, g1, g2⟩ := h6 j t ht hle
    exact ⟨D, accumulated_from hperm2 hmap2 g1, g2⟩

/-- **C137**, average (without half weights, from a start different from 0, of messages that are not accumulated): the
same, where each file reaches the end of its part. -/
theorem two_file_average_run (ne : NumExpr) (x : FileIn n k) (y : SecondFile m) (f : Num → Num) (mv : ℚ)
    (hidx : x.indexable = true) (hidx2 : y.indexable = true)
    (hup : x.sel.shortName.map Char.toUpper ≠ x.sel.shortName) (ao : AggrOpts) (hagg : x.aggr = some ao)
    (hty : ao.type = "average") (hh : ao.halfweights = false) (a : Int) (ha : ao.step = a) (hpos : 0 < a)
    (hinst : ∀ q ∈ x.file, String.ofList q.stepType ≠ "accum")
    (E : Int) (hE : LastStep x.file x.sel E) (hreg : StepsDiffer x.file x.sel) (start hi : Int)
    (hst : start = x.tstart.getD 0) (hstart : start ≠ 0) (hhi : hi = windowEnd x.tend E)
    (sel : List (GMsg (Arr n))) (hsel : sel = taken x.file x.sel (max 0 (start - a)) hi)
    (sel2 : List (GMsg (Arr m))) (hsel2 : sel2 = taken y.file x.sel (max 0 (start - a)) hi)
    (nj : Int) (hnj : ∀ q ∈ sel, q.nj = nj) (hdiff : (sel.map GMsg.endStep).Nodup)
    (nj2 : Int) (hnj2 : ∀ q ∈ sel2, q.nj = nj2) (hdiff2 : (sel2.map GMsg.endStep).Nodup)
    (hmv : ∀ q ∈ sel, q.missingValue = .fin mv) (hdate : ∀ q ∈ sel, (reference q).isSome = true)
    (hdate2 : ∀ q ∈ sel2, (reference q).isSome = true) (hconv : Means ne x.conversion f) (hfit : Fits x.table n)
    (hfit2 : Fits x.table2 m) (c : GMsg (Arr m)) (hc : c ∈ sel2) (hcmin : ∀ q ∈ sel2, c.endStep ≤ q.endStep)
    (hse : c.startStep ≤ c.endStep) (h0 : 0 ≤ c.endStep) (hend : c.endStep + a < hi)
    (hex : ∃ q ∈ sel, c.startStep ≤ q.endStep) (hex2 : ∃ q ∈ sel2, hi ≤ q.endStep) :
    ∃ files n1 n2, x.pcrasterTwo ne y = .ok files ∧ files.length = n1 + n2 ∧
      (∀ j : Nat, j < n1 ↔ start + j * a ≤ c.startStep) ∧
      (∀ j : Nat, j < n2 ↔ c.endStep + a + j * a ≤ hi) ∧
      (∀ (j : Nat) t, t = start + j * a → t ≤ c.startStep →
        ∃ D, MeanFrom mv f sel a t D ∧
          files[j]? = some (pcrName x.namePrefix x.fmap x.ext (j + 1), fun i => shown x.mask x.mvClone
            (finalCell x.height (cellOf x.table x.mvOut
              (Spec.cutField (x.conversion.isSome && x.cutOff) D) i) i) i)) ∧
      ∀ (j : Nat) t, t = c.endStep + a + j * a → t ≤ hi →
        ∃ D, MeanFrom mv f sel2 a t D ∧
          files[n1 + j]? = some (pcrName x.namePrefix x.fmap x.ext ((n1 : Int) + j + 1), fun i => shown x.mask x.mvClone
            (finalCell x.height2 (cellOf x.table2 x.mvOut
              (Spec.cutField (x.conversion.isSome && x.cutOff) D) i) i) i) := by
  have hne : sel ≠ [] := by
    obtain ⟨q, hq, -⟩ := hex
    exact List.ne_nil_of_mem hq
  have hfile : ∀ q ∈ sel, q ∈ x.file := by
    intro q hq
    rw [hsel] at hq
    unfold taken at hq
    split at hq
    · exact (List.mem_filter.1 hq).1
    · exact (List.mem_filter.1 hq).1
  obtain ⟨info, t2, msgs, msgs2, ms, ms2, hs, hrs, hre, ⟨qt, hqt, ht2⟩, hmvs, hperm, hmap, hperm2, hmap2, hcs1, hcs2⟩ :=
    two_file_settings x y mv hidx hidx2 hup ao hagg a ha E hE hreg start hi hst hhi sel hsel hne sel2 hsel2 nj hnj hdiff
      nj2 hnj2 hdiff2 hmv hdate hdate2 c hc hcmin
  have hav := avail_file hperm hmap
  have hav2 := avail_file hperm2 hmap2
  obtain ⟨mt, hmt, hmn, hpt⟩ := paramType_mem x hidx E hE
  have hrun := two_grid_average_run ne (x.assemble info t2 (msgs.append2nd msgs2)) f mv hmvs hconv hfit hfit2
    msgs2.firstStep a rfl (by rw [hcs1, hcs2]; exact hse) (by rw [hcs2]; exact h0)
    (by unfold FileIn.assemble; rw [hagg]; rfl) (by unfold FileIn.assemble; rw [hagg, ← ha]; rfl) hpos
    (by rw [hcs2]; exact lt_of_lt_of_eq hend hre.symm)
    (by unfold FileIn.assemble; rw [hagg, ← hty]; rfl)
    (by
      change x.paramType ≠ "accum"
      rw [hpt]
      exact hinst mt hmt)
    (by
      change t2 ≠ "accum"
      rw [ht2]
      exact hinst qt (hfile qt hqt))
    (by unfold FileIn.assemble; rw [hagg, ← hh]; rfl)
    (by
      change (x.range info).1 ≠ 0
      rw [hrs]
      exact hstart)
    (by
      rw [hcs1]
      obtain ⟨q, hq, hle⟩ := hex
      exact ⟨q.endStep, (hav _).2 ⟨q, hq, rfl⟩, hle⟩)
    (by
      obtain ⟨q, hq, hle⟩ := hex2
      exact ⟨q.endStep, (hav2 _).2 ⟨q, hq, rfl⟩, le_of_eq_of_le hre hle⟩)
  obtain ⟨files, n1, n2, h1, h2, h3, h4, h5, h6⟩ := hrun
  change ∀ j : Nat, j < n1 ↔ (x.range info).1 + j * a ≤ _ at h3
  change ∀ j : Nat, j < n2 ↔ _ ≤ (x.range info).2 at h4
  change ∀ (j : Nat) t, t = (x.range info).1 + j * a → _ at h5
  change ∀ (j : Nat) t, _ → t ≤ (x.range info).2 → _ at h6
  rw [hrs, hcs1] at h3 h5
  rw [hre, hcs2] at h4 h6
  refine ⟨files, n1, n2, ?_, h2, h3, h4, ?_, ?_⟩
  · unfold FileIn.pcrasterTwo
    rw [hs]
    exact h1
  · intro j t ht hle
    obtain ⟨D, g1, g2⟩ := h5 j t ht hle
    exact ⟨D, mean_from hperm hmap hne g1, g2⟩
  · intro j t ht hle
    obtain ⟨D, g1, g2⟩ := h6 j t ht hle
    exact ⟨D, mean_from hperm2 hmap2 (List.ne_nil_of_mem hc) g1, g2⟩

/-! ## C138: the period of a run on two files -/

/-- **C138** (violated). Without an end in the command, the window ends at the last step of the first file: if the
messages of the second file end later — as they do when it continues the first one — the run finds none of them and ends
with error 3000. -/
theorem two_files_without_end (ne : NumExpr) (x : FileIn n k) (y : SecondFile m) (mv : ℚ)
    (hidx : x.indexable = true) (hidx2 : y.indexable = true)
    (hup : x.sel.shortName.map Char.toUpper ≠ x.sel.shortName) (ao : AggrOpts) (hagg : x.aggr = some ao)
    (E : Int) (hE : LastStep x.file x.sel E) (hreg : StepsDiffer x.file x.sel) (hend : x.tend = none)
    (sel : List (GMsg (Arr n))) (hsel : sel = taken x.file x.sel (max 0 (x.tstart.getD 0 - ao.step)) E) (hne : sel ≠ [])
    (nj : Int) (hnj : ∀ q ∈ sel, q.nj = nj) (hdiff : (sel.map GMsg.endStep).Nodup)
    (hmv : ∀ q ∈ sel, q.missingValue = .fin mv) (hdate : ∀ q ∈ sel, (reference q).isSome = true)
    (hlate : ∀ q ∈ y.file, E < q.endStep) :
    x.pcrasterTwo ne y = .error (.app 3000) := by
  subst hsel
  obtain ⟨info, t2, msgs, ms, hset, -⟩ := first_file (m := m) x hidx hup E hE (max 0 (x.tstart.getD 0 - ao.step)) E
    (fun step h => by
      rw [hagg, hend]
      exact window_aggr x.tstart none ao.step step E (h hreg)) hne nj hnj (differ_of_ends hdiff) mv hmv hdate
  have hempty : taken y.file x.sel (max 0 (x.tstart.getD 0 - ao.step)) E = [] := by
    have h1 : (y.file.filter fun q => asksFor x.sel q && inWindow (max 0 (x.tstart.getD 0 - ao.step)) E q) = [] := by
      rw [List.filter_eq_nil_iff]
      intro q hq h
      rw [Bool.and_eq_true] at h
      have h2 := h.2
      have h3 := hlate q hq
      unfold inWindow at h2
      split at h2
      · have := of_decide_eq_true h2
        omega
      · have := of_decide_eq_true h2
        omega
    have h2 : (y.file.filter fun q => asksFor x.sel q && decide (0 ≤ q.startStep ∧ q.endStep ≤ E)) = [] := by
      rw [List.filter_eq_nil_iff]
      intro q hq h
      rw [Bool.and_eq_true] at h
      have := of_decide_eq_true h.2
      have h3 := hlate q hq
      omega
    unfold taken
    rw [h1, h2]
    split <;> rfl
  have hsrc : (Reader.init y.indexable x.sel.perturbation.isSome ⟨0, [], [], false⟩).src =
      .index x.sel.perturbation.isSome := by
    unfold Reader.init
    rw [hidx2]
    rfl
  obtain ⟨g, r', hg, hperm, hin⟩ := getGids_taken y.file _ _ hsrc x.sel (max 0 (x.tstart.getD 0 - ao.step)) E hup
  rw [hempty] at hperm
  have hnil : g = [] := by
    cases g with
    | nil => rfl
    | cons q g =>
      exfalso
      obtain ⟨w, hw⟩ := hin q (List.mem_cons_self ..)
      have hm : (q.1, w) ∈ msgsOf y.file (q :: g) := by
        unfold msgsOf
        rw [List.mem_filterMap]
        exact ⟨q, List.mem_cons_self .., by rw [hw]; rfl⟩
      rw [List.map_eq_nil_iff.1 (List.perm_nil.1 hperm)] at hm
      cases hm
  obtain ⟨r2, hs⟩ := ((C27_no_messages y.file _ r' _ g hg).1 hnil).2
  unfold FileIn.pcrasterTwo
  rw [hset y]
  unfold FileIn.readSecond
  dsimp only
  rw [hs]

namespace Demo

/-- A message of six hours that ends at `e`, with missing value `mv`. -/
def six {q : Nat} (nj e : Int) (mv : ℚ) (v : Fin q → Num) : GMsg (Arr q) :=
  ⟨"tp".toList, e - 6, e, nj, 0, "instant".toList, .fin mv, noon, ⟨v, none⟩⟩

/-- The second file: one point, steps 18 to 30. -/
def later (mv : ℚ) (v : Num) : SecondFile 1 :=
  ⟨[six 5 18 mv fun _ => v, six 5 24 mv fun _ => v, six 5 30 mv fun _ => v], true⟩

/-- Six-hourly averages from step 6 on, two points up to step 12. -/
def joined (tend : Option Int) : FileIn 2 1 :=
  { fileIn (some 6) tend (some ⟨6, "average", false, false⟩) true with
    file := [six 10 6 (-9999) fun i => if i = 0 then .fin 1 else .fin 2,
      six 10 12 (-9999) fun i => if i = 0 then .fin 3 else .fin 4]
    conversion := some (some "x=x*2".toList)
    table2 := .nearest fun _ => 0 }

/-- C137: two files on the first grid, two on the second (18–24 and 24–30: the first message of the second file only
marks the change). -/
example : ((joined (some 30)).pcrasterTwo runNe (later (-9999) (.fin 7))).toOption.map
    (·.map fun p => (p.1, p.2 0)) = some [("tp000000.001".toList, .fin 4), ("tp000000.002".toList, .fin 8),
      ("tp000000.003".toList, .fin 14), ("tp000000.004".toList, .fin 14)] := by
  decide +kernel

theorem joined_last : LastStep (joined none).file (joined none).sel 12 := by
  refine ⟨⟨six 10 12 (-9999) fun i => if i = 0 then .fin 3 else .fin 4, ?_, by decide +kernel, rfl⟩, by decide +kernel⟩
  unfold joined
  simp

theorem joined_steps : StepsDiffer (joined none).file (joined none).sel := by
  refine ⟨by decide +kernel, ?_⟩
  intro q hq
  have := congrArg List.length hq
  revert this
  have : ((joined none).file.filter (named (joined none).sel)).length = 2 := by decide +kernel
  rw [this]
  intro h
  cases h

/-- It meets the hypotheses of `two_file_average_run`. -/
example : ∃ files n1 n2, (joined (some 30)).pcrasterTwo runNe (later (-9999) (.fin 7)) = .ok files ∧
    files.length = n1 + n2 ∧ (∀ j : Nat, j < n1 ↔ 6 + (j : Int) * 6 ≤ 12) ∧
    (∀ j : Nat, j < n2 ↔ 18 + 6 + (j : Int) * 6 ≤ 30) := by
  obtain ⟨files, n1, n2, h1, h2, h3, h4, -⟩ := two_file_average_run runNe (joined (some 30)) (later (-9999) (.fin 7))
    (fun a => a * .fin 2) (-9999) rfl rfl (by decide +kernel) _ rfl rfl rfl 6 rfl (by decide) (by decide +kernel) 12
    joined_last joined_steps 6 30 rfl (by decide) rfl _ rfl _ rfl 10 (by decide +kernel) (by decide +kernel) 5
    (by decide +kernel) (by decide +kernel) (by decide +kernel) (by decide +kernel) (by decide +kernel)
    (Or.inr ⟨"x*2".toList, by
      intro a b h
      have h2 : '=' ∈ "x*2".toList := by rw [h]; simp
      revert h2; decide, by decide, rfl, rfl⟩) (fun _ => Nat.le_succ 1) (fun _ => Nat.zero_le 1)
    (six 5 18 (-9999) fun _ => .fin 7)
    (by
      have : taken (later (-9999) (.fin 7)).file (joined (some 30)).sel (max 0 (6 - 6)) 30 =
        (later (-9999) (.fin 7)).file := by
          have hq : ∀ q ∈ (later (-9999) (.fin 7)).file,
            (asksFor (joined (some 30)).sel q && inWindow (max 0 (6 - 6)) 30 q) = true := by decide +kernel
          unfold taken
          rw [List.filter_eq_self.2 hq]
          rfl
      rw [this]
      exact List.mem_cons_self ..)
    (by decide +kernel) (by decide) (by decide) (by decide) (by decide +kernel) (by decide +kernel)
  exact ⟨files, n1, n2, h1, h2, h3, h4⟩

/-- C138: without an end. -/
example : (joined none).pcrasterTwo runNe (later (-9999) (.fin 7)) = .error (.app 3000) :=
  two_files_without_end runNe (joined none) (later (-9999) (.fin 7)) (-9999) rfl rfl (by decide +kernel) _ rfl 12
    joined_last joined_steps rfl _ rfl (fun h => absurd (congrArg List.length h) (by decide +kernel)) 10
    (by decide +kernel) (by decide +kernel) (by decide +kernel) (by decide +kernel) (by decide +kernel)

end Demo

/-! ## C139: missing values of the second file -/

/-- **C139** (the part that holds). If both files have the same missing value, a point that is missing in the messages of
the second file that fill an interval is missing in the mean. -/
theorem second_missing_kept_partial {mv : ℚ} {f : Num → Num} {sel : List (GMsg (Arr m))} {a t : Int} {D : Arr m}
    (hpos : 0 < a) (h : MeanFrom mv f sel a t D) (i : Fin m) (hmiss : ∀ q ∈ sel, q.values.data i = .fin mv) :
    D.data i = .fin mv := by
  obtain ⟨F, hF, hD⟩ := h
  rw [(hD i).1]
  have : ((List.range a.toNat).map fun (y : Nat) => (convertedField mv f (F (t - a + 1 + (y : Int))).values).data i) =
      (List.range a.toNat).map fun _ => Num.fin mv := by
    refine List.map_congr_left fun y hy => ?_
    have := List.mem_range.1 hy
    unfold convertedField
    dsimp only
    rw [if_pos (hmiss _ (hF _ (by omega) (by omega)).1)]
  rw [this]
  have hs : ∀ l : List Nat, (l.map fun _ => Num.fin mv).sum = .fin (l.length * mv) := by
    intro l
    induction l with
    | nil =>
      rw [List.map_nil, List.sum_nil, List.length_nil, Nat.cast_zero, zero_mul]
      rfl
    | cons x l ih =>
      rw [List.map_cons, List.sum_cons, ih, Num.fin_add, List.length_cons]
      congr 1
      push_cast
      ring
  rw [hs, List.length_range]
  have ha : ((a.toNat : Nat) : ℚ) = (a : ℚ) := by
    have : ((a.toNat : Nat) : Int) = a := Int.toNat_of_nonneg (by omega)
    exact_mod_cast congrArg (Int.cast : Int → ℚ) this
  rw [ha]
  have hne : (a : ℚ) ≠ 0 := by exact_mod_cast (by omega : a ≠ 0)
  unfold Num.ofInt
  rw [Num.fin_div_of_ne _ hne]
  congr 1
  field_simp

/-- **C139** (violated). The missing value of the first file is used for both files: where the second file has another
one, its missing points are converted like data. Here 9999 becomes 19998. -/
theorem second_missing_converted :
    ∃ (x : FileIn 2 1) (y : SecondFile 1), (∀ q ∈ y.file, q.missingValue = .fin 9999 ∧ q.values.data 0 = .fin 9999) ∧
      (x.pcrasterTwo Demo.runNe y).toOption.map (·.map fun p => p.2 0) =
        some [.fin 4, .fin 8, .fin 19998, .fin 19998] :=
  ⟨Demo.joined (some 30), Demo.later 9999 (.fin 9999), by decide +kernel, by decide +kernel⟩

end PyG2P
