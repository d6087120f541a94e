import Verif.Model.Controller
import Verif.Props.Accumulation
import Verif.Props.Average
import Verif.Props.Writers

/-! # C54, C77–C79 — order of the maps, two resolutions -/

namespace PyG2P
open Spec CtrlIn
variable {n m : Nat}

/-! ## sorting -/

theorem sortedBy_of_sorted {α : Type} (f : α → Int) {l : List α} (h : l.Pairwise fun a b => f a ≤ f b) :
    sortedBy f l = l := by
  unfold sortedBy
  exact List.Pairwise.insertionSort_eq h

theorem Dict.update_disjoint {κ α : Type} [DecidableEq κ] : ∀ (e d : Dict κ α), (Dict.keys e).Nodup →
    (∀ k ∈ Dict.keys e, k ∉ Dict.keys d) → Dict.update d e = d ++ e := by
  intro e
  induction e with
  | nil => intro d _ _; exact (List.append_nil d).symm
  | cons p e ih =>
    intro d hn hd
    rw [Dict.keys_cons, List.nodup_cons] at hn
    have hp : p.1 ∉ Dict.keys d := hd p.1 (by simp)
    change Dict.update (Dict.set d p.1 p.2) e = _
    rw [Dict.set_of_not_mem hp, ih _ hn.2]
    · simp
    · intro k hk hk'
      unfold Dict.keys at hk'
      rw [List.map_append, List.mem_append] at hk'
      rcases hk' with h | h
      · exact hd k (by simp [hk]) h
      · rw [List.map_cons, List.map_nil, List.mem_singleton] at h
        rw [h] at hk
        exact hn.1 hk

/-! ## C77 -/

/-- **C77.** The maps of every successful run are written in non-decreasing order of their end steps, and
they are exactly the manipulated maps (each once). -/
theorem maps_in_time_order (c : CtrlIn n m) (out : Dict Step (Field n m)) (ch : Option Step)
    (h : c.run = .ok (out, ch)) :
    out.Pairwise (fun a b => a.1.endStep ≤ b.1.endStep) ∧
    ∃ v1 v, c.firstPart = .ok v1 ∧ c.secondPart v1 = .ok (v, ch) ∧ (Dict.keys out).Perm (Dict.keys v) ∧
      (c.cutOff = false → out.Perm v) := by
  unfold CtrlIn.run at h
  cases h1 : c.firstPart with
  | error e => rw [h1] at h; cases h
  | ok v1 =>
    rw [h1] at h
    dsimp only at h
    cases h2 : c.secondPart v1 with
    | error e => rw [h2] at h; cases h
    | ok q =>
      obtain ⟨v, ch'⟩ := q
      rw [h2] at h
      dsimp only at h
      have h := Except.ok.inj h
      injection h with ha hb
      subst hb
      rw [← ha]
      refine ⟨sortedBy_pairwise _ _, v1, v, rfl, h2, ?_, ?_⟩
      · refine ((sortedBy_perm _ _).map _).trans ?_
        cases c.cutOff with
        | false => exact List.Perm.refl _
        | true =>
          rw [if_pos rfl]
          unfold Dict.keys
          rw [List.map_map]
          exact List.Perm.refl _
      · intro hc
        rw [hc]
        exact sortedBy_perm _ _

/-- The dictionary the aggregations work on does not depend on the order of messages with distinct end steps. -/
theorem vOrd_perm {ms ms' : Messages n} (hp : ms.Perm ms') (hd : (ms.map (·.1.endStep)).Nodup) :
    Aggregator.vOrd ms = Aggregator.vOrd ms' := by
  have hd' : (ms'.map (·.1.endStep)).Nodup := (hp.map _).nodup_iff.1 hd
  have hof : ∀ l : Messages n, (l.map (·.1.endStep)).Nodup →
      Dict.ofPairs (l.map fun p => (p.1.endStep, p.2)) = l.map fun p => (p.1.endStep, p.2) := by
    intro l hl
    have := Dict.update_disjoint (l.map fun p => (p.1.endStep, p.2)) ([] : Dict Int (Arr n))
      (by unfold Dict.keys; rw [List.map_map]; exact hl) (by intro k _ hk; cases hk)
    rw [List.nil_append] at this
    exact this
  unfold Aggregator.vOrd
  rw [hof ms hd, hof ms' hd']
  have hperm : (sortedBy (·.1) (ms.map fun p => (p.1.endStep, p.2))).Perm
      (sortedBy (·.1) (ms'.map fun p => (p.1.endStep, p.2))) :=
    (sortedBy_perm _ _).trans ((hp.map _).trans (sortedBy_perm _ _).symm)
  have strict : ∀ l : Messages n, (l.map (·.1.endStep)).Nodup →
      (sortedBy (·.1) (l.map fun p => (p.1.endStep, p.2))).Pairwise (fun a b => a.1 < b.1) := by
    intro l hl
    have h1 := sortedBy_pairwise (·.1) (l.map fun p => (p.1.endStep, p.2))
    have h2 : ((sortedBy (·.1) (l.map fun p => (p.1.endStep, p.2))).map (·.1)).Nodup := by
      rw [((sortedBy_perm _ _).map _).nodup_iff, List.map_map]
      exact hl
    rw [List.nodup_iff_pairwise_ne, List.pairwise_map] at h2
    exact List.Pairwise.imp₂ (fun _ _ hab hne => lt_of_le_of_ne hab hne) h1 h2
  exact List.Perm.eq_of_pairwise (fun a b _ _ h1 h2 => absurd h1 (by omega)) (strict ms hd) (strict ms' hd') hperm

/-- **C77 (order of the messages).** For messages of distinct end steps and one resolution and level, the order
in which they come does not matter: the aggregation gives the same maps in the same order, or the same
error. -/
theorem message_order_irrelevant (ag : Aggregator) {ms ms' : Messages n} (hp : ms.Perm ms')
    (hd : (ms.map (·.1.endStep)).Nodup) (res lvl : Int)
    (hsame : ∀ p ∈ ms, p.1.resolution = res ∧ p.1.level = lvl) :
    ag.doManipulation ms = ag.doManipulation ms' := by
  have hv := vOrd_perm hp hd
  have hsame' : ∀ p ∈ ms', p.1.resolution = res ∧ p.1.level = lvl := fun p h => hsame p (hp.mem_iff.2 h)
  have hfirst : ∀ l : Messages n, (∀ p ∈ l, p.1.resolution = res ∧ p.1.level = lvl) → l ≠ [] →
      ∃ f : Step, pyGet (Dict.keys l) 0 = .ok f ∧ f.resolution = res ∧ f.level = lvl := by
    intro l hl hne
    cases l with
    | nil => exact absurd rfl hne
    | cons p l => exact ⟨p.1, rfl, hl p (by simp)⟩
  by_cases hne : ms = []
  · subst hne
    rw [List.nil_perm.1 hp]
  · have hne' : ms' ≠ [] := fun h => hne (by rw [h] at hp; exact List.perm_nil.1 hp)
    obtain ⟨f, hf, hfr, hfl⟩ := hfirst ms hsame hne
    obtain ⟨f', hf', hfr', hfl'⟩ := hfirst ms' hsame' hne'
    unfold Aggregator.doManipulation Aggregator.accumulation Aggregator.average Aggregator.instantaneous
    rw [hf, hf', hv]
    dsimp only [bind, Except.bind]
    rw [hfr, hfl, hfr', hfl']

/-! ## C78 -/

namespace Spec

/-- Aggregation into intervals: accumulation, or averages with a start step. -/
def Intervals (aggrType : String) (start : Int) : Prop :=
  aggrType = "accumulation" ∨ (aggrType = "average" ∧ start ≠ 0)

end Spec

/-- The maps of an aggregation into intervals. -/
theorem interval_keys (ag : Aggregator) (ms : Messages n) (out : Dict Step (Arr n))
    (ht : Spec.Intervals ag.aggrType ag.start) (hs : 0 < ag.aggrStep) (h2 : ag.secondTRes = false)
    (hrun : ag.doManipulation ms = .ok out) :
    ∃ first, ms.head? = some first ∧
      (∀ k, k ∈ Dict.keys out ↔ ∃ t, InRange (firstEnd ag.start ag.aggrStep) ag.end_ ag.aggrStep t ∧
        k = intervalKey ag.aggrStep first.1.resolution first.1.level t) ∧
      (Dict.keys out).Pairwise (fun a b => a.endStep < b.endStep) := by
  rcases ht with ht | ⟨ht, h0⟩
  · exact C02_accumulation_keys ag ms out ht hs hrun
  · obtain ⟨first, hf, hk, hp⟩ := C08_average_keys ag ms out ht hs h2 h0 hrun
    refine ⟨first, hf, fun k => ?_, hp⟩
    rw [hk]
    have e : ∀ s, avgKey ag.aggrStep first.1.resolution first.1.level s =
        intervalKey ag.aggrStep first.1.resolution first.1.level (s + ag.aggrStep) := by
      intro s
      unfold avgKey intervalKey
      rw [Int.add_sub_cancel]
    constructor
    · rintro ⟨s, ⟨j, h1, h2⟩, rfl⟩
      exact ⟨s + ag.aggrStep, ⟨j, by omega, h2⟩, e s⟩
    · rintro ⟨t, ⟨j, h1, h2⟩, rfl⟩
      refine ⟨t - ag.aggrStep, ⟨j, by omega, by omega⟩, ?_⟩
      rw [e, Int.sub_add_cancel]


theorem interval_pairwise {first end_ a res lvl : Int} (ha : 0 < a) {ks : List Step}
    (hk : ∀ k ∈ ks, ∃ t, InRange first end_ a t ∧ k = intervalKey a res lvl t)
    (hp : ks.Pairwise fun a b => a.endStep < b.endStep) :
    ks.Pairwise fun a b => a.endStep ≤ b.startStep := by
  refine List.Pairwise.imp_of_mem ?_ hp
  intro x y hx hy hlt
  obtain ⟨t, ⟨i, hi, -⟩, rfl⟩ := hk x hx
  obtain ⟨u, ⟨j, hj, -⟩, rfl⟩ := hk y hy
  change t < u at hlt
  change t ≤ u - a
  have hij : (i : Int) < j := by
    by_contra h
    have : (j : Int) * a ≤ i * a := Int.mul_le_mul_of_nonneg_right (by omega) (by omega)
    omega
  have : ((i : Int) + 1) * a ≤ j * a := Int.mul_le_mul_of_nonneg_right (by omega) (by omega)
  rw [Int.add_mul] at this
  omega

/-- **C78, C54** (the part that holds). A run that changes its resolution at message `s` (with a start not
after its end), aggregates into intervals of `a` hours and ends more than `a` hours after `s`: the maps on the
first grid are exactly those of the intervals that end at `start, start+a, ...` up to the start of `s`, the maps
on the second grid those of the intervals from the end of `s` on that end by the end of the run; no two
intervals overlap, the maps come in time order, and the writers use the second grid for exactly the maps of the
second resolution. What is missing: a run that ends exactly `a` hours after `s` loses its last interval
(`two_resolutions_last_interval`), messages accumulated from 0 (`two_resolutions_from_zero`), and instantaneous
maps (`two_resolutions_instant_twice`). -/
theorem two_resolutions_partial (c : CtrlIn n m) (s : Step) (a : Int) (out : Dict Step (Field n m))
    (ch : Option Step) (hch : c.msgs.changeResolutionStep = some s) (hagg : c.aggregate = true)
    (ha : c.aggrStep = some a) (hpos : 0 < a) (hse : s.startStep ≤ s.endStep) (h0 : 0 ≤ s.endStep)
    (ht : Spec.Intervals c.aggrType c.start) (hend : s.endStep + a < c.end_) (hrun : c.run = .ok (out, ch)) :
    ∃ f1 f2, c.msgs.first.head? = some f1 ∧ c.msgs.second.head? = some f2 ∧
      (∀ k, (∃ x, (k, Sum.inl x) ∈ out) ↔ ∃ t, InRange (firstEnd c.start a) s.startStep a t ∧
        k = intervalKey a f1.1.resolution f1.1.level t) ∧
      (∀ k, (∃ x, (k, Sum.inr x) ∈ out) ↔ ∃ t, InRange (s.endStep + a) c.end_ a t ∧
        k = intervalKey a f2.1.resolution f2.1.level t) ∧
      out.Pairwise (fun p q => p.1.endStep ≤ q.1.startStep) ∧
      (gridLoop ch false out).map (fun q => (q.1, q.2.1)) = out ∧
      ∀ q ∈ gridLoop ch false out, (q.2.2 = true ↔ ∃ x, q.2.1 = Sum.inr x) := by
  unfold CtrlIn.run at hrun
  cases h1 : c.firstPart with
  | error e => rw [h1] at hrun; cases hrun
  | ok v1 =>
  rw [h1] at hrun
  dsimp only at hrun
  unfold CtrlIn.firstPart at h1
  rw [if_pos hagg, ha, hch] at h1
  dsimp only at h1
  cases h2 : c.secondPart v1 with
  | error e => rw [h2] at hrun; cases hrun
  | ok q =>
  obtain ⟨v, ch'⟩ := q
  rw [h2] at hrun
  dsimp only at hrun
  unfold CtrlIn.secondPart at h2
  dsimp only at h2
  rw [hch, ha] at h2
  dsimp only at h2
  rw [if_pos ⟨hagg, hend⟩] at h2
  cases h3 : (c.aggregator2 a (s.endStep + a)).doManipulation c.msgs.second with
  | error e => rw [h3] at h2; cases h2
  | ok v2 =>
  rw [h3] at h2
  dsimp only at h2
  obtain ⟨f1, hf1, hk1, hp1⟩ := interval_keys ((c.aggregator a).changeEndStep s.startStep) c.msgs.first v1 ht
    hpos rfl h1
  obtain ⟨f2, hf2, hk2, hp2⟩ := interval_keys (c.aggregator2 a (s.endStep + a)) c.msgs.second v2
    (by
      rcases ht with h | ⟨h, -⟩
      · exact Or.inl h
      · refine Or.inr ⟨h, ?_⟩
        change s.endStep + a ≠ 0
        omega) hpos rfl h3
  have hstart2 : firstEnd (s.endStep + a) a = s.endStep + a := by
    unfold firstEnd
    rw [if_neg (by omega)]
  have hk1' : ∀ k, k ∈ Dict.keys v1 ↔ ∃ t, InRange (firstEnd c.start a) s.startStep a t ∧
      k = intervalKey a f1.1.resolution f1.1.level t := hk1
  have hk2' : ∀ k, k ∈ Dict.keys v2 ↔ ∃ t, InRange (s.endStep + a) c.end_ a t ∧
      k = intervalKey a f2.1.resolution f2.1.level t := by
    intro k
    have := hk2 k
    change _ ↔ ∃ t, InRange (firstEnd (s.endStep + a) a) c.end_ a t ∧ _ at this
    rw [hstart2] at this
    exact this
  -- ends of the first part, starts of the second
  have hend1 : ∀ k ∈ Dict.keys v1, k.endStep ≤ s.endStep := by
    intro k hk
    obtain ⟨t, ⟨_, -, hle⟩, rfl⟩ := (hk1' k).1 hk
    change t ≤ _
    omega
  have hstart : ∀ k ∈ Dict.keys v2, s.endStep ≤ k.startStep ∧ k.startStep < k.endStep := by
    intro k hk
    obtain ⟨t, ⟨j, hj, -⟩, rfl⟩ := (hk2' k).1 hk
    change _ ≤ t - a ∧ t - a < t
    have : 0 ≤ (j : Int) * a := Int.mul_nonneg (by omega) (by omega)
    omega
  have hdisj : ∀ k ∈ Dict.keys v2, k ∉ Dict.keys v1 := by
    intro k hk hk'
    have := hend1 k hk'
    have := hstart k hk
    omega
  have hn2 : (Dict.keys v2).Nodup := hp2.imp (fun h e => by rw [e] at h; omega)
  -- the first key of the second part
  have hv2 : ∃ p v2', v2 = p :: v2' := by
    cases hv : v2 with
    | cons p v2' => exact ⟨p, v2', rfl⟩
    | nil =>
      have : intervalKey a f2.1.resolution f2.1.level (s.endStep + a) ∈ Dict.keys v2 :=
        (hk2' _).2 ⟨_, ⟨0, by omega, by omega⟩, rfl⟩
      rw [hv] at this
      cases this
  obtain ⟨p0, v2', hv2⟩ := hv2
  have hs2 : sortedBy Step.endStep (Dict.keys v2) = Dict.keys v2 :=
    sortedBy_of_sorted _ (hp2.imp (fun h => by omega))
  have hget : pyGet (sortedBy Step.endStep (Dict.keys v2)) 0 = .ok p0.1 := by
    rw [hs2, hv2]; rfl
  rw [hget] at h2
  dsimp only at h2
  have h2 := Except.ok.inj h2
  injection h2 with hv hch'
  have hkm : ∀ {α β : Type} (w : Dict Step α) (f : α → β), Dict.keys (w.map fun p => (p.1, f p.2)) = Dict.keys w := by
    intro α β w f
    unfold Dict.keys
    rw [List.map_map]
    rfl
  rw [Dict.update_disjoint _ _ (by rw [hkm]; exact hn2) (by rw [hkm, hkm]; exact hdisj)] at hv
  -- the whole list
  have hrun := Except.ok.inj hrun
  injection hrun with hout hch''
  set g : Field n m → Field n m := if c.cutOff then cutField else id with hg
  have hgl : ∀ x, ∃ y, g (.inl x) = .inl y := by
    intro x
    rw [hg]
    split
    · exact ⟨_, rfl⟩
    · exact ⟨_, rfl⟩
  have hgr : ∀ x, ∃ y, g (.inr x) = .inr y := by
    intro x
    rw [hg]
    split
    · exact ⟨_, rfl⟩
    · exact ⟨_, rfl⟩
  set A : Dict Step (Field n m) := v1.map fun p => (p.1, g (.inl p.2)) with hA
  set B : Dict Step (Field n m) := v2.map fun p => (p.1, g (.inr p.2)) with hB
  have hcut : (if c.cutOff = true then v.map (fun p => (p.1, cutField p.2)) else v) = A ++ B := by
    have : (if c.cutOff = true then v.map (fun p => (p.1, cutField p.2)) else v) = v.map fun p => (p.1, g p.2) := by
      rw [hg]
      cases c.cutOff with
      | true => rfl
      | false =>
        rw [if_neg (by decide), if_neg (by decide)]
        exact (List.map_id v).symm
    rw [this, ← hv, List.map_append, List.map_map, List.map_map]
    rfl
  rw [hcut] at hout
  have hkA : Dict.keys A = Dict.keys v1 := hkm v1 fun x => g (.inl x)
  have hkB : Dict.keys B = Dict.keys v2 := hkm v2 fun x => g (.inr x)
  have pw : (Dict.keys (A ++ B)).Pairwise fun a b => a.endStep ≤ b.startStep := by
    unfold Dict.keys
    rw [List.map_append, List.pairwise_append]
    refine ⟨?_, ?_, ?_⟩
    · change (Dict.keys A).Pairwise _
      rw [hkA]
      exact interval_pairwise hpos (fun k hk => (hk1' k).1 hk) hp1
    · change (Dict.keys B).Pairwise _
      rw [hkB]
      exact interval_pairwise hpos (fun k hk => (hk2' k).1 hk) hp2
    · intro x hx y hy
      change x ∈ Dict.keys A at hx
      change y ∈ Dict.keys B at hy
      rw [hkA] at hx
      rw [hkB] at hy
      have := hend1 x hx
      have := hstart y hy
      omega
  have pw' : (A ++ B).Pairwise fun p q => p.1.endStep ≤ q.1.startStep := by
    unfold Dict.keys at pw
    rw [List.pairwise_map] at pw
    exact pw
  have hkey : ∀ p ∈ A ++ B, p.1.startStep ≤ p.1.endStep := by
    intro p hp
    rcases List.mem_append.1 hp with h | h
    · have : p.1 ∈ Dict.keys v1 := hkA ▸ List.mem_map_of_mem (f := (·.1)) h
      obtain ⟨t, -, e⟩ := (hk1' _).1 this
      rw [e]
      change t - a ≤ t
      omega
    · have : p.1 ∈ Dict.keys v2 := hkB ▸ List.mem_map_of_mem (f := (·.1)) h
      have := hstart _ this
      omega
  have hsorted : sortedBy (fun p : Step × Field n m => p.1.endStep) (A ++ B) = A ++ B := by
    apply sortedBy_of_sorted
    refine List.Pairwise.imp_of_mem ?_ pw'
    intro p q _ hq h
    have := hkey q hq
    omega
  rw [hsorted] at hout
  subst hout
  have hAl : ∀ p ∈ A, ∃ x, p.2 = .inl x := by
    intro p hp
    obtain ⟨q, -, rfl⟩ := List.mem_map.1 hp
    exact hgl _
  have hBr : ∀ p ∈ B, ∃ x, p.2 = .inr x := by
    intro p hp
    obtain ⟨q, -, rfl⟩ := List.mem_map.1 hp
    exact hgr _
  refine ⟨f1, f2, hf1, hf2, ?_, ?_, pw', ?_, ?_⟩
  · intro k
    rw [← hk1', ← hkA]
    constructor
    · rintro ⟨x, hx⟩
      rcases List.mem_append.1 hx with h | h
      · exact List.mem_map_of_mem (f := (·.1)) h
      · obtain ⟨y, hy⟩ := hBr _ h
        cases hy
    · intro hk
      obtain ⟨⟨k', x⟩, hp, rfl⟩ := List.mem_map.1 hk
      obtain ⟨y, hy⟩ := hAl _ hp
      dsimp only at hy
      subst hy
      exact ⟨y, List.mem_append.2 (Or.inl hp)⟩
  · intro k
    rw [← hk2', ← hkB]
    constructor
    · rintro ⟨x, hx⟩
      rcases List.mem_append.1 hx with h | h
      · obtain ⟨y, hy⟩ := hAl _ h
        cases hy
      · exact List.mem_map_of_mem (f := (·.1)) h
    · intro hk
      obtain ⟨⟨k', x⟩, hp, rfl⟩ := List.mem_map.1 hk
      obtain ⟨y, hy⟩ := hBr _ hp
      dsimp only at hy
      subst hy
      exact ⟨y, List.mem_append.2 (Or.inr hp)⟩
  · apply List.ext_getElem?
    intro k
    rw [List.getElem?_map]
    cases hk : (A ++ B)[k]? with
    | none =>
      have : (gridLoop ch false (A ++ B))[k]? = none := by
        rw [List.getElem?_eq_none_iff, gridLoop_length]
        exact List.getElem?_eq_none_iff.1 hk
      rw [this]; rfl
    | some p =>
      obtain ⟨b, hb, -⟩ := gridLoop_get ch (A ++ B) false k p.1 p.2 hk
      rw [hb]; rfl
  · intro q hq
    obtain ⟨k, hk⟩ := List.mem_iff_getElem?.1 hq
    have hlen : k < (A ++ B).length := by
      have := (List.getElem?_eq_some_iff.1 hk).1
      rw [gridLoop_length] at this
      exact this
    obtain ⟨b, hb, hb'⟩ := gridLoop_get ch (A ++ B) false k (A ++ B)[k].1 (A ++ B)[k].2
      (List.getElem?_eq_getElem hlen)
    rw [hk] at hb
    have hb := Option.some.inj hb
    subst hb
    dsimp only
    rw [hb']
    have hB0 : B[0]? = some (p0.1, g (.inr p0.2)) := by rw [hB, hv2]; rfl
    have hchs : ch = some p0.1 := by rw [← hch'', ← hch']
    constructor
    · rintro (h | ⟨d, hd, j, w, hjk, hw⟩)
      · cases h
      · rw [hchs] at hd
        have hd := Option.some.inj hd
        have hj : A.length ≤ j := by
          by_contra hlt
          rw [Nat.not_le] at hlt
          rw [List.getElem?_append_left hlt] at hw
          have hm : d ∈ Dict.keys A := List.mem_map_of_mem (f := (·.1)) (List.mem_of_getElem? hw)
          rw [hkA, ← hd] at hm
          exact hdisj p0.1 (by rw [hv2]; simp [Dict.keys]) hm
        have hBk : (A ++ B)[k] ∈ B := by
          rw [List.getElem_append_right (by omega)]
          exact List.getElem_mem _
        exact hBr _ hBk
    · rintro ⟨x, hx⟩
      have hkA' : A.length ≤ k := by
        by_contra hlt
        rw [Nat.not_le] at hlt
        rw [List.getElem_append_left hlt] at hx
        obtain ⟨y, hy⟩ := hAl _ (List.getElem_mem hlt)
        rw [hy] at hx
        cases hx
      refine Or.inr ⟨p0.1, hchs, A.length, g (.inr p0.2), hkA', ?_⟩
      rw [List.getElem?_append_right (Nat.le_refl _), Nat.sub_self, hB0]

/-! ### what is missing of C78 -/

theorem run_parts {c : CtrlIn n m} {out : Dict Step (Field n m)} {ch : Option Step} (h : c.run = .ok (out, ch)) :
    ∃ v1 v, c.firstPart = .ok v1 ∧ c.secondPart v1 = .ok (v, ch) ∧
      ∀ p ∈ out, ∃ q ∈ v, q.1 = p.1 ∧ (p.2 = q.2 ∨ p.2 = cutField q.2) := by
  unfold CtrlIn.run at h
  cases h1 : c.firstPart with
  | error e => rw [h1] at h; cases h
  | ok v1 =>
    rw [h1] at h
    dsimp only at h
    cases h2 : c.secondPart v1 with
    | error e => rw [h2] at h; cases h
    | ok q =>
      obtain ⟨v, ch'⟩ := q
      rw [h2] at h
      dsimp only at h
      have h := Except.ok.inj h
      injection h with ha hb
      subst hb
      refine ⟨v1, v, rfl, h2, ?_⟩
      intro p hp
      rw [← ha] at hp
      have hp := (sortedBy_perm _ _).mem_iff.1 hp
      split at hp
      · obtain ⟨q, hq, rfl⟩ := List.mem_map.1 hp
        exact ⟨q, hq, rfl, Or.inr rfl⟩
      · exact ⟨p, hp, rfl, Or.inl rfl⟩

/-- **C78 is violated** at the end of the range: a run that ends by `a` hours after the change message writes no
map of the second resolution, although the interval of `a` hours that starts at the end of the change message
lies in the requested range when the run ends exactly then (`c.end_ = s.endStep + a`). -/
theorem two_resolutions_last_interval (c : CtrlIn n m) (s : Step) (a : Int) (out : Dict Step (Field n m))
    (ch : Option Step) (hch : c.msgs.changeResolutionStep = some s) (ha : c.aggrStep = some a)
    (hend : c.end_ ≤ s.endStep + a) (hrun : c.run = .ok (out, ch)) (k : Step) (x : Arr m) :
    (k, Sum.inr x) ∉ out := by
  obtain ⟨v1, v, -, h2, hout⟩ := run_parts hrun
  intro hk
  obtain ⟨q, hq, -, hq2⟩ := hout _ hk
  unfold CtrlIn.secondPart at h2
  dsimp only at h2
  rw [hch, ha] at h2
  dsimp only at h2
  rw [if_neg (by rintro ⟨-, h⟩; omega)] at h2
  have h2 := Except.ok.inj h2
  injection h2 with hv
  rw [← hv] at hq
  obtain ⟨p, -, rfl⟩ := List.mem_map.1 hq
  rcases hq2 with h | h <;> cases h

/-- **C78 is violated** by fields accumulated from the start of the forecast (start step 0 in every message): a
successful run with a change of resolution aggregates no interval of the first resolution at all. -/
theorem two_resolutions_from_zero (c : CtrlIn n m) (s : Step) (a : Int) (out : Dict Step (Field n m))
    (ch : Option Step) (hch : c.msgs.changeResolutionStep = some s) (h0 : s.startStep = 0)
    (hagg : c.aggregate = true) (ha : c.aggrStep = some a) (hpos : 0 < a) (hst : 0 ≤ c.start)
    (ht : c.aggrType = "accumulation") (hrun : c.run = .ok (out, ch)) (k : Step) (x : Arr n) :
    (k, Sum.inl x) ∉ out := by
  obtain ⟨v1, v, h1, h2, hout⟩ := run_parts hrun
  unfold CtrlIn.firstPart at h1
  rw [if_pos hagg, ha, hch] at h1
  dsimp only at h1
  obtain ⟨f1, -, hk1, -⟩ := interval_keys ((c.aggregator a).changeEndStep s.startStep) c.msgs.first v1
    (Or.inl ht) hpos rfl h1
  have hv1 : v1 = [] := by
    cases hv : v1 with
    | nil => rfl
    | cons p l =>
      obtain ⟨t, ⟨j, hj, hle⟩, -⟩ := (hk1 p.1).1 (by rw [hv]; simp [Dict.keys])
      change t ≤ s.startStep at hle
      change t = firstEnd c.start a + j * a at hj
      have : 0 ≤ (j : Int) * a := Int.mul_nonneg (by omega) (by omega)
      have : 0 < firstEnd c.start a := by
        unfold firstEnd
        split <;> omega
      omega
  subst hv1
  intro hk
  obtain ⟨q, hq, -, hq2⟩ := hout _ hk
  have hr : ∀ q ∈ v, ∃ y, q.2 = Sum.inr y := by
    unfold CtrlIn.secondPart at h2
    dsimp only at h2
    rw [hch, ha] at h2
    dsimp only at h2
    split at h2
    · cases h3 : (c.aggregator2 a (s.endStep + a)).doManipulation c.msgs.second with
      | error e => rw [h3] at h2; cases h2
      | ok v2 =>
        rw [h3] at h2
        dsimp only at h2
        cases h4 : pyGet (sortedBy Step.endStep (Dict.keys v2)) 0 with
        | error e => rw [h4] at h2; cases h2
        | ok k0 =>
          rw [h4] at h2
          dsimp only at h2
          have h2 := Except.ok.inj h2
          injection h2 with hv
          intro q hq
          rw [← hv] at hq
          have hmem : ∀ (e d : Dict Step (Field n m)), (∀ q ∈ e, ∃ y, q.2 = Sum.inr y) →
              (∀ q ∈ d, ∃ y, q.2 = Sum.inr y) → ∀ q ∈ Dict.update d e, ∃ y, q.2 = Sum.inr y := by
            intro e
            induction e with
            | nil => intro d _ hd; exact hd
            | cons p e ih =>
              intro d he hd
              refine ih (Dict.set d p.1 p.2) (fun q hq => he q (by simp [hq])) ?_
              intro q hq
              rcases Dict.mem_set hq with h | h
              · exact hd q h
              · rw [h]; exact he p (by simp)
          refine hmem _ _ ?_ ?_ q hq
          · intro q hq
            obtain ⟨p, -, rfl⟩ := List.mem_map.1 hq
            exact ⟨_, rfl⟩
          · intro q hq; cases hq
    · have h2 := Except.ok.inj h2
      injection h2 with hv
      rw [← hv]
      intro q hq; cases hq
  obtain ⟨y, hy⟩ := hr q hq
  rw [hy] at hq2
  rcases hq2 with h | h <;> cases h

namespace Demo

/-- A run with two resolutions: `m1`, `m2` the messages, changing at the first message `s` of the second file. -/
def twoRes (m1 m2 : List (Step × Arr 1)) (s : Step) (type : String) (start end_ : Int) : CtrlIn 1 1 :=
  { msgs := ⟨m1, m2, .fin 9999, ⟨[], 0, some ([], s)⟩, ⟨0, 0, 0, 0, 0⟩⟩
    aggregate := true, aggrStep := some 6, aggrType := type, halfweights := false, forceZero := false
    unitTime := 6, inputStep := 6, stepType := "instant", stepType2 := "instant", start := start, end_ := end_
    cutOff := false }

/-- a message valid at `t`. -/
def at_ (res t : Int) (q : ℚ) : Step × Arr 1 := (⟨t, t, res, 6, 0⟩, f q)

end Demo

/-- The hypotheses of `two_resolutions_partial` are met: a run from 6 to 24 with the change at 12. -/
example : ((Demo.twoRes [Demo.at_ 640 0 1, Demo.at_ 640 6 3, Demo.at_ 640 12 7]
    [Demo.at_ 320 12 7, Demo.at_ 320 18 15, Demo.at_ 320 24 31] ⟨12, 12, 320, 6, 0⟩ "accumulation" 6 24).run).map
      (fun r => (r.1.map fun p => (p.1, p.2.isRight), r.2)) =
    .ok ([(⟨0, 6, 640, 6, 0⟩, false), (⟨6, 12, 640, 6, 0⟩, false), (⟨12, 18, 320, 6, 0⟩, true),
      (⟨18, 24, 320, 6, 0⟩, true)], some ⟨12, 18, 320, 6, 0⟩) := by decide +kernel

/-- `two_resolutions_last_interval` on a run that ends at 18: the interval 12–18 is lost. -/
example : ((Demo.twoRes [Demo.at_ 640 0 1, Demo.at_ 640 6 3, Demo.at_ 640 12 7]
    [Demo.at_ 320 12 7, Demo.at_ 320 18 15] ⟨12, 12, 320, 6, 0⟩ "accumulation" 6 18).run).map
      (fun r => (r.1.map fun p => (p.1, p.2.isRight), r.2)) =
    .ok ([(⟨0, 6, 640, 6, 0⟩, false), (⟨6, 12, 640, 6, 0⟩, false)], some ⟨12, 12, 320, 6, 0⟩) := by
  decide +kernel

/-- `two_resolutions_from_zero` on messages accumulated from 0: the intervals 0–6, 6–12 are lost. -/
example : ((Demo.twoRes [Demo.msg 6 (Demo.f 3), Demo.msg 12 (Demo.f 7)]
    [Demo.msg 12 (Demo.f 7), Demo.msg 18 (Demo.f 15), Demo.msg 24 (Demo.f 31)] ⟨0, 12, 320, 6, 0⟩
      "accumulation" 6 24).run).map (fun r => (r.1.map fun p => (p.1, p.2.isRight), r.2)) =
    .ok ([(⟨12, 18, 640, 6, 0⟩, true), (⟨18, 24, 640, 6, 0⟩, true)], some ⟨12, 18, 640, 6, 0⟩) := by
  decide +kernel

/-- **C78 is violated** by instantaneous aggregation: with two files that share the message of the change, hour
12 is written twice, once per resolution. -/
theorem two_resolutions_instant_twice : ∃ (c : CtrlIn 1 1) (out : Dict Step (Field 1 1)) (ch : Option Step)
    (x : Arr 1) (y : Arr 1), c.aggrType = "instantaneous" ∧ c.run = .ok (out, ch) ∧
      (⟨12, 12, 640, 6, 0⟩, Sum.inl x) ∈ out ∧ (⟨12, 12, 320, 6, 0⟩, Sum.inr y) ∈ out := by
  refine ⟨Demo.twoRes [Demo.at_ 640 0 1, Demo.at_ 640 6 3, Demo.at_ 640 12 7]
    [Demo.at_ 320 12 7, Demo.at_ 320 18 15, Demo.at_ 320 24 31] ⟨12, 12, 320, 6, 0⟩ "instantaneous" 6 24,
    [(⟨6, 6, 640, 6, 0⟩, .inl (Demo.f 3)), (⟨12, 12, 640, 6, 0⟩, .inl (Demo.f 7)),
     (⟨12, 12, 320, 6, 0⟩, .inr (Demo.f 7)), (⟨18, 18, 320, 6, 0⟩, .inr (Demo.f 15)),
     (⟨24, 24, 320, 6, 0⟩, .inr (Demo.f 31))], some ⟨12, 12, 320, 6, 0⟩, Demo.f 7, Demo.f 7, rfl, by decide +kernel, by simp, by simp⟩

/-- **C78 is violated** by files that do not overlap: when the first message of the second resolution starts at
its own time and the first file ends before, the aggregation of the first part asks for the missing step and
raises `IndexError`. -/
theorem two_resolutions_crash : ∃ c : CtrlIn 1 1, c.aggrType = "accumulation" ∧ c.run = .error .indexError := by
  refine ⟨Demo.twoRes [Demo.at_ 640 0 1, Demo.at_ 640 6 3, Demo.at_ 640 12 7]
    [Demo.at_ 320 18 15, Demo.at_ 320 24 31, Demo.at_ 320 30 31] ⟨18, 18, 320, 6, 0⟩ "accumulation" 6 30, rfl, ?_⟩
  decide +kernel

/-! ## C79 -/

/-- **C79 is violated**, for every input: a run with two resolutions and no aggregation step raises
`TypeError`, so no message is written at all. -/
theorem two_resolutions_without_aggregation_fail (c : CtrlIn n m) (s : Step)
    (hch : c.msgs.changeResolutionStep = some s) (ha : c.aggrStep = none) : c.run = .error .typeError := by
  have h2 : ∀ v1, c.secondPart v1 = .error .typeError := by
    intro v1
    unfold CtrlIn.secondPart
    dsimp only
    rw [hch, ha]
  unfold CtrlIn.run
  cases h1 : c.firstPart with
  | error e =>
    unfold CtrlIn.firstPart at h1
    split at h1
    · rw [ha] at h1
      dsimp only at h1 ⊢
      exact congrArg Except.error (Except.error.inj h1).symm
    · cases h1
  | ok v1 =>
    dsimp only
    rw [h2]

/-- **C79** (the part that holds, for no reachable option set of the command line): with an aggregation step
given but aggregation off, the maps of the first resolution, and only those, are written, sorted. -/
theorem two_resolutions_without_aggregation_partial (c : CtrlIn n m) (s : Step) (a : Int)
    (hch : c.msgs.changeResolutionStep = some s) (ha : c.aggrStep = some a) (hagg : c.aggregate = false)
    (hc : c.cutOff = false) :
    ∃ out, c.run = .ok (out, some s) ∧ out.Perm (c.msgs.first.map fun p => (p.1, Sum.inl p.2)) := by
  refine ⟨sortedBy (fun p => p.1.endStep) (c.msgs.first.map fun p => (p.1, Sum.inl p.2)), ?_, sortedBy_perm _ _⟩
  have h1 : c.firstPart = .ok c.msgs.first := by
    unfold CtrlIn.firstPart
    rw [if_neg (by rw [hagg]; decide)]
  have h2 : c.secondPart c.msgs.first = .ok (c.msgs.first.map fun p => (p.1, Sum.inl p.2), some s) := by
    unfold CtrlIn.secondPart
    dsimp only
    rw [hch, ha]
    dsimp only
    rw [if_neg (by rw [hagg]; rintro ⟨h, -⟩; cases h)]
  unfold CtrlIn.run
  rw [h1]
  dsimp only
  rw [h2, hc]
  rfl

example : ({ Demo.twoRes [Demo.at_ 640 0 1, Demo.at_ 640 6 3] [Demo.at_ 320 12 7] ⟨12, 12, 320, 6, 0⟩ "" 0 12 with
    aggregate := false, aggrStep := none } : CtrlIn 1 1).run = .error .typeError := by decide +kernel

/-- C77: two orders of the same four messages. -/
example : Demo.ms4.Perm [Demo.msg 0 (Demo.f 1), Demo.msg 6 (Demo.f 2), Demo.msg 12 (Demo.f 5), Demo.msg 18 (Demo.f 9)] ∧
    (Demo.ms4.map (·.1.endStep)).Nodup ∧ (∀ p ∈ Demo.ms4, p.1.resolution = 640 ∧ p.1.level = 0) ∧
    (Demo.acc 12 18 6).doManipulation Demo.ms4 = (Demo.acc 12 18 6).doManipulation
      [Demo.msg 0 (Demo.f 1), Demo.msg 6 (Demo.f 2), Demo.msg 12 (Demo.f 5), Demo.msg 18 (Demo.f 9)] := by
  have hp : Demo.ms4.Perm
      [Demo.msg 0 (Demo.f 1), Demo.msg 6 (Demo.f 2), Demo.msg 12 (Demo.f 5), Demo.msg 18 (Demo.f 9)] := by
    decide +kernel
  have hd : (Demo.ms4.map (·.1.endStep)).Nodup := by decide +kernel
  have hs : ∀ p ∈ Demo.ms4, p.1.resolution = 640 ∧ p.1.level = 0 := by
    intro p hp
    simp only [Demo.ms4, List.mem_cons, List.not_mem_nil, or_false] at hp
    rcases hp with rfl | rfl | rfl | rfl <;> exact ⟨rfl, rfl⟩
  exact ⟨hp, hd, hs, message_order_irrelevant _ hp hd 640 0 hs⟩

/-- C54: the maps of the example above, in the writers. -/
example : writeNetcdf (fun b (v : Nat) => (b, v)) (some ⟨12, 18, 320, 6, 0⟩)
    [(⟨0, 6, 640, 6, 0⟩, 1), (⟨6, 12, 640, 6, 0⟩, 2), (⟨12, 18, 320, 6, 0⟩, 3), (⟨18, 24, 320, 6, 0⟩, 4)] =
    [(6, (false, 1)), (12, (false, 2)), (18, (true, 3)), (24, (true, 4))] := by decide +kernel

end PyG2P
