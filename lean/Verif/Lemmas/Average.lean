import Verif.Lemmas.Aggregator
import Verif.Lemmas.Range

/-! # Average and instantaneous: what the loops compute -/

namespace PyG2P

instance : AddCommMonoid Num where
  add_assoc := Num.add_assoc'
  zero_add := Num.zero_add'
  add_zero a := by rw [Num.add_comm']; exact Num.zero_add' a
  add_comm := Num.add_comm'
  nsmul := nsmulRec

open Spec
variable {n : Nat}
namespace Aggregator

theorem IsNext_unique {ms : Messages n} {h u u' : Int} (h1 : IsNext ms h u) (h2 : IsNext ms h u') :
    u = u' := le_antisymm (h1.2.2 u' h2.1 h2.2.1) (h2.2.2 u h1.1 h1.2.1)

theorem ValidAt_unique {ms : Messages n} {h : Int} {v v' : Arr n} (h1 : ValidAt ms h v)
    (h2 : ValidAt ms h v') : v = v' := by
  obtain ⟨u, hu, hv⟩ := h1
  obtain ⟨u', hu', hv'⟩ := h2
  rw [IsNext_unique hu hu', hv'] at hv
  exact (Option.some.inj hv).symm

theorem next_of_bisect (ms : Messages n) (h u : Int)
    (hu : pyGet (Dict.keys (vOrd ms)) (bisectLeft (Dict.keys (vOrd ms)) h : Int) = .ok u) :
    IsNext ms h u := by
  have hsort := (keys_vOrd_sorted ms).imp (fun h => le_of_lt h)
  obtain ⟨hle, hl, hr⟩ := bisectLeft_spec hsort h
  rw [pyGet_ok_iff _ _ _ (by omega)] at hu
  simp only [Int.toNat_natCast] at hu
  obtain ⟨hlt, hget⟩ := List.getElem?_eq_some_iff.1 hu
  refine ⟨(mem_keys_vOrd ms u).1 (hget ▸ List.getElem_mem hlt), hget ▸ hr _ hlt (le_refl _), ?_⟩
  intro w hw hhw
  rw [← mem_keys_vOrd] at hw
  obtain ⟨j, hj, hjw⟩ := List.getElem_of_mem hw
  by_cases hjb : j < bisectLeft (Dict.keys (vOrd ms)) h
  · have := hl j hj hjb; omega
  · rw [← hget, ← hjw]
    rcases Nat.lt_or_eq_of_le (Nat.le_of_not_lt hjb) with hlt' | heq
    · exact List.pairwise_iff_getElem.1 hsort _ _ hlt hj hlt'
    · simp [heq]

theorem bisect_of_next (ms : Messages n) (h : Int) (hex : ∃ u, Avail ms u ∧ h ≤ u) :
    ∃ u, pyGet (Dict.keys (vOrd ms)) (bisectLeft (Dict.keys (vOrd ms)) h : Int) = .ok u := by
  have hsort := (keys_vOrd_sorted ms).imp (fun h => le_of_lt h)
  obtain ⟨hle, hl, hr⟩ := bisectLeft_spec hsort h
  obtain ⟨u, hu, hhu⟩ := hex
  rw [← mem_keys_vOrd] at hu
  obtain ⟨j, hj, hju⟩ := List.getElem_of_mem hu
  have hlt : bisectLeft (Dict.keys (vOrd ms)) h < (Dict.keys (vOrd ms)).length := by
    by_contra hge
    have := hl j hj (by omega)
    omega
  exact ⟨_, pyGet_natCast _ _ _ (List.getElem?_eq_getElem hlt)⟩

theorem bisect_none (ms : Messages n) (h : Int) (hno : ∀ u, Avail ms u → u < h) :
    pyGet (Dict.keys (vOrd ms)) (bisectLeft (Dict.keys (vOrd ms)) h : Int) = .error .indexError := by
  have hsort := (keys_vOrd_sorted ms).imp (fun h => le_of_lt h)
  obtain ⟨hle, hl, hr⟩ := bisectLeft_spec hsort h
  apply pyGet_natCast_error
  by_contra hlt
  have hlt' : bisectLeft (Dict.keys (vOrd ms)) h < (Dict.keys (vOrd ms)).length := by omega
  have h1 := hr _ hlt' (le_refl _)
  have := hno _ ((mem_keys_vOrd ms _).1 (List.getElem_mem hlt'))
  omega

theorem avgField_ok (ms : Messages n) (h : Int) (v : Arr n) :
    avgField (vOrd ms) h = .ok v ↔ ValidAt ms h v := by
  unfold avgField
  constructor
  · intro hv
    split at hv
    · rename_i hin
      rw [Dict.getE_eq_ok, get?_vOrd] at hv
      exact ⟨h, ⟨(mem_keys_vOrd ms h).1 hin, le_refl _, fun w _ hw => hw⟩, hv⟩
    · simp only [bind_ok_iff] at hv
      obtain ⟨u, hu, hv⟩ := hv
      rw [Dict.getE_eq_ok, get?_vOrd] at hv
      exact ⟨u, next_of_bisect ms h u hu, hv⟩
  · rintro ⟨u, hu, hv⟩
    split
    · rename_i hin
      have : u = h := le_antisymm (hu.2.2 h ((mem_keys_vOrd ms h).1 hin) (le_refl _)) hu.2.1
      subst this
      rw [Dict.getE_eq_ok, get?_vOrd, hv]
    · obtain ⟨u', hu'⟩ := bisect_of_next ms h ⟨u, hu.1, hu.2.1⟩
      have := IsNext_unique hu (next_of_bisect ms h u' hu')
      subst this
      rw [hu', ok_bind, Dict.getE_eq_ok, get?_vOrd, hv]

theorem exists_valid (ms : Messages n) (h : Int) (hex : ∃ u, Avail ms u ∧ h ≤ u) :
    ∃ v, ValidAt ms h v := by
  obtain ⟨u, hu⟩ := bisect_of_next ms h hex
  have hn := next_of_bisect ms h u hu
  obtain ⟨v, hv⟩ := Option.isSome_iff_exists.1 ((avail_iff _ _).1 hn.1)
  exact ⟨v, u, hn, hv⟩

theorem avgField_none (ms : Messages n) (h : Int) (hno : ∀ u, Avail ms u → u < h) :
    avgField (vOrd ms) h = .error .indexError := by
  unfold avgField
  rw [if_neg, bisect_none ms h hno]; rfl
  intro hin
  exact absurd (hno h ((mem_keys_vOrd ms h).1 hin)) (lt_irrefl _)

/-- The inner loop of the plain average. -/
theorem avgHours_ok (ms : Messages n) (l : List Int) :
    ∀ (acc r : (Fin n → Num) × Num), l.foldlM (avgHour (vOrd ms)) acc = .ok r →
    ∃ F : Int → Arr n, (∀ h ∈ l, ValidAt ms h (F h)) ∧
      (∀ i, r.1 i = acc.1 i + (l.map fun h => (F h).data i).sum) ∧ r.2 = acc.2 + Num.ofInt l.length := by
  induction l with
  | nil =>
    intro acc r h
    injection h with h
    subst h
    exact ⟨fun _ => Arr.zeros, by simp, by simp, by
      have : Num.ofInt (([] : List Int).length : Int) = 0 := rfl
      rw [this, add_zero]⟩
  | cons h l ih =>
    intro acc r hr
    rw [List.foldlM_cons, bind_ok_iff] at hr
    obtain ⟨acc', h1, h2⟩ := hr
    unfold avgHour at h1
    rw [bind_ok_iff] at h1
    obtain ⟨v, hv, h1⟩ := h1
    injection h1 with h1
    obtain ⟨F, hF, hs, hc⟩ := ih acc' r h2
    rw [avgField_ok] at hv
    refine ⟨fun x => if x = h then v else F x, ?_, ?_, ?_⟩
    · intro x hx
      by_cases hxh : x = h
      · subst hxh; simpa using hv
      · simp only [hxh, if_false]
        exact hF x ((List.mem_cons.1 hx).resolve_left hxh)
    · intro i
      rw [hs i, ← h1]
      dsimp only
      rw [List.map_cons, List.sum_cons, if_pos rfl, add_assoc]
      congr 2
      apply congrArg
      apply List.map_congr_left
      intro x hx
      by_cases hxh : x = h
      · subst hxh
        rw [if_pos rfl, ValidAt_unique hv (hF x hx)]
      · rw [if_neg hxh]
    · rw [hc, ← h1]
      rw [add_assoc]
      congr 1
      rw [List.length_cons]
      have : (1 : Num) = Num.ofInt 1 := by rw [Num.ofNat_def]; simp
      rw [this]
      simp only [Num.ofInt_def, Num.fin_add]
      push_cast
      rw [add_comm]

theorem avgHours_total (ms : Messages n) (l : List Int) :
    ∀ (acc : (Fin n → Num) × Num), (∀ h ∈ l, ∃ u, Avail ms u ∧ h ≤ u) →
    ∃ r, l.foldlM (avgHour (vOrd ms)) acc = .ok r := by
  induction l with
  | nil => intro acc _; exact ⟨acc, rfl⟩
  | cons h l ih =>
    intro acc hl
    obtain ⟨v, hv⟩ := exists_valid ms h (hl h (by simp))
    rw [List.foldlM_cons]
    unfold avgHour
    rw [(avgField_ok ms h v).2 hv, ok_bind, ok_bind]
    exact ih _ (fun x hx => hl x (List.mem_cons_of_mem _ hx))

theorem avgHours_fail (ms : Messages n) (l : List Int) :
    ∀ (acc : (Fin n → Num) × Num), (∃ h ∈ l, ∀ u, Avail ms u → u < h) →
    l.foldlM (avgHour (vOrd ms)) acc = .error .indexError := by
  induction l with
  | nil => rintro acc ⟨h, hh, -⟩; simp at hh
  | cons h l ih =>
    rintro acc ⟨x, hx, hno⟩
    rw [List.foldlM_cons]
    by_cases hh : ∃ u, Avail ms u ∧ h ≤ u
    · obtain ⟨v, hv⟩ := exists_valid ms h hh
      unfold avgHour
      rw [(avgField_ok ms h v).2 hv, ok_bind, ok_bind]
      apply ih
      rcases List.mem_cons.1 hx with rfl | h'
      · obtain ⟨u, h1, h2⟩ := hh; exact absurd (hno u h1) (by omega)
      · exact ⟨x, h', hno⟩
    · unfold avgHour
      rw [avgField_none ms h (by intro u hu; by_contra hc; exact hh ⟨u, hu, by omega⟩)]
      rfl

/-- A loop that appends one map per iteration, with distinct keys: success gives the list of maps. -/
theorem fold_out_ok {f : Dict Step (Arr n) → Int → Py (Dict Step (Arr n))}
    {key : Int → Step} {val : Int → Py (Arr n)}
    (hf : ∀ o t, f o t = (val t >>= fun v => .ok (Dict.set o (key t) v)))
    (hkey : ∀ a b, key a = key b → a = b) (l : List Int) (hl : l.Nodup) (r : Dict Step (Arr n)) :
    l.foldlM f [] = .ok r →
    ∃ V : Int → Arr n, (∀ t ∈ l, val t = .ok (V t)) ∧ r = l.map fun t => (key t, V t) := by
  intro h
  have := foldlM_inv f (fun pre o => ∃ V : Int → Arr n, (∀ t ∈ pre, val t = .ok (V t)) ∧
    o = pre.map fun t => (key t, V t)) l [] r ⟨fun _ => Arr.zeros, by simp, rfl⟩ (by
      rintro pre x post s s' hlx ⟨V, hV, rfl⟩ hs
      rw [hf, bind_ok_iff] at hs
      obtain ⟨v, hv, hs⟩ := hs
      injection hs with hs
      have hxn : x ∉ pre := by
        rw [hlx] at hl
        intro hx
        exact (List.nodup_append.1 hl).2.2 x hx x (by simp) rfl
      refine ⟨fun t => if t = x then v else V t, ?_, ?_⟩
      · intro t ht
        by_cases htx : t = x
        · subst htx; simpa using hv
        · simp only [htx, if_false]
          rcases List.mem_append.1 ht with h | h
          · exact hV t h
          · simp at h; exact absurd h htx
      · rw [← hs, Dict.set_of_not_mem]
        · rw [List.map_append]
          congr 1
          · apply List.map_congr_left
            intro t ht
            dsimp only
            rw [if_neg]
            rintro rfl; exact hxn ht
          · simp
        · unfold Dict.keys
          rw [List.map_map]
          intro hc
          obtain ⟨t, ht, hk⟩ := List.mem_map.1 hc
          exact hxn (hkey _ _ hk ▸ ht)) h
  exact this

theorem fold_out_total {f : Dict Step (Arr n) → Int → Py (Dict Step (Arr n))}
    {key : Int → Step} {val : Int → Py (Arr n)}
    (hf : ∀ o t, f o t = (val t >>= fun v => .ok (Dict.set o (key t) v)))
    (l : List Int) (hv : ∀ t ∈ l, ∃ v, val t = .ok v) (o : Dict Step (Arr n)) :
    ∃ r, l.foldlM f o = .ok r := by
  induction l generalizing o with
  | nil => exact ⟨o, rfl⟩
  | cons t l ih =>
    obtain ⟨v, hv'⟩ := hv t (by simp)
    rw [List.foldlM_cons, hf, hv', ok_bind, ok_bind]
    exact ih (fun t ht => hv t (List.mem_cons_of_mem _ ht)) _

theorem fold_out_fail {f : Dict Step (Arr n) → Int → Py (Dict Step (Arr n))}
    {key : Int → Step} {val : Int → Py (Arr n)} {e : PyErr}
    (hf : ∀ o t, f o t = (val t >>= fun v => .ok (Dict.set o (key t) v)))
    (l : List Int) (hv : ∀ t ∈ l, (∃ v, val t = .ok v) ∨ val t = .error e)
    (hex : ∃ t ∈ l, val t = .error e) (o : Dict Step (Arr n)) :
    l.foldlM f o = .error e := by
  induction l generalizing o with
  | nil => obtain ⟨t, ht, -⟩ := hex; simp at ht
  | cons t l ih =>
    rw [List.foldlM_cons, hf]
    rcases hv t (by simp) with ⟨v, hv'⟩ | hv'
    · rw [hv', ok_bind, ok_bind]
      refine ih (fun t ht => hv t (List.mem_cons_of_mem _ ht)) ?_ _
      obtain ⟨x, hx, hxe⟩ := hex
      rcases List.mem_cons.1 hx with rfl | h
      · rw [hv'] at hxe; cases hxe
      · exact ⟨x, h, hxe⟩
    · rw [hv']; rfl

/-- The map of one averaging interval. -/
def avgVal (ag : Aggregator) (vo : Dict Int (Arr n)) (it : Int) : Py (Arr n) :=
  avgSums ag vo it >>= fun r => .ok (Arr.maskedWhere none fun i => r.1 i / r.2)

theorem avgIter_eq (ag : Aggregator) (vo : Dict Int (Arr n)) (res lvl : Int) (o : Dict Step (Arr n))
    (t : Int) : avgIter ag vo res lvl o t =
      (avgVal ag vo t >>= fun v => .ok (Dict.set o ⟨t, t + ag.aggrStep, res, ag.aggrStep, lvl⟩ v)) := by
  unfold avgIter avgVal
  cases avgSums ag vo t <;> rfl

theorem instIter_eq (ag : Aggregator) (vo : Dict Int (Arr n)) (res lvl : Int) (o : Dict Step (Arr n))
    (t : Int) : instIter ag vo res lvl o t =
      (instField vo t >>= fun v => .ok (Dict.set o ⟨t, t, res, ag.aggrStep, lvl⟩ v)) := by
  unfold instIter
  cases instField vo t <;> rfl

theorem key_head {ms : Messages n} {f : Step} (h : pyGet (Dict.keys ms) 0 = .ok f) :
    ∃ p, ms.head? = some p ∧ p.1 = f := by
  cases ms with
  | nil => rw [Dict.keys_nil, pyGet_zero_nil] at h; cases h
  | cons p ms =>
    rw [Dict.keys_cons, pyGet_zero_cons] at h
    injection h with h
    exact ⟨p, rfl, h⟩

theorem key_head' {ms : Messages n} {p : Step × Arr n} (h : ms.head? = some p) :
    pyGet (Dict.keys ms) 0 = .ok p.1 := by
  cases ms with
  | nil => simp at h
  | cons q ms =>
    simp at h; subst h
    rw [Dict.keys_cons, pyGet_zero_cons]

/-- Summary of a successful average. -/
theorem average_ok (ag : Aggregator) (ms : Messages n) (hs : 0 < ag.aggrStep)
    (out : Dict Step (Arr n)) (h : ag.average ms = .ok out) :
    ag.stepType ≠ PARAM_CUM ∧ ∃ (first : Step × Arr n) (V : Int → Arr n), ms.head? = some first ∧
      (∀ t ∈ rangeList ag.avgBounds.1 ag.avgBounds.2 ag.aggrStep, avgVal ag (vOrd ms) t = .ok (V t)) ∧
      out = (rangeList ag.avgBounds.1 ag.avgBounds.2 ag.aggrStep).map fun t =>
        (avgKey ag.aggrStep first.1.resolution first.1.level t, V t) := by
  unfold average at h
  split at h
  · cases h
  rename_i hst
  refine ⟨hst, ?_⟩
  simp only [bind_ok_iff] at h
  obtain ⟨f, hf, its, hr, h⟩ := h
  rw [pyRange_pos hs] at hr
  injection hr with hr
  subst hr
  obtain ⟨p, hp, hpf⟩ := key_head hf
  subst hpf
  obtain ⟨V, hV, ho⟩ := fold_out_ok (avgIter_eq ag (vOrd ms) p.1.resolution p.1.level)
    (fun a b hab => congrArg Step.startStep hab) _ (rangeList_nodup hs) out h
  exact ⟨p, V, hp, hV, ho⟩

theorem instantaneous_ok (ag : Aggregator) (ms : Messages n) (hs : 0 < ag.aggrStep)
    (out : Dict Step (Arr n)) (h : ag.instantaneous ms = .ok out) :
    ag.stepType ≠ PARAM_CUM ∧ ∃ (first : Step × Arr n) (V : Int → Arr n), ms.head? = some first ∧
      (∀ t ∈ rangeList ag.findStart (ag.end_ + 1) ag.aggrStep, instField (vOrd ms) t = .ok (V t)) ∧
      out = (rangeList ag.findStart (ag.end_ + 1) ag.aggrStep).map fun t =>
        (instKey ag.aggrStep first.1.resolution first.1.level t, V t) := by
  unfold instantaneous at h
  split at h
  · cases h
  rename_i hst
  refine ⟨hst, ?_⟩
  simp only [bind_ok_iff] at h
  obtain ⟨f, hf, its, hr, h⟩ := h
  rw [pyRange_pos hs] at hr
  injection hr with hr
  subst hr
  obtain ⟨p, hp, hpf⟩ := key_head hf
  subst hpf
  obtain ⟨V, hV, ho⟩ := fold_out_ok (instIter_eq ag (vOrd ms) p.1.resolution p.1.level)
    (fun a b hab => congrArg Step.startStep hab) _ (rangeList_nodup hs) out h
  exact ⟨p, V, hp, hV, ho⟩

theorem instField_ok (ms : Messages n) (t : Int) (m : Arr n) :
    instField (vOrd ms) t = .ok m ↔
      ((Avail ms t ∨ t ≠ 0) ∧ ∃ v, ValidAt ms t v ∧ m = ⟨v.data, none⟩) ∨
      (¬ Avail ms t ∧ t = 0 ∧ m = Arr.zeros) := by
  have hz : ∀ v : Arr n, v.intoZeros = ⟨v.data, none⟩ := by
    intro v; unfold Arr.intoZeros; simp only [Num.zero_add']
  have hvalid := avgField_ok ms t
  unfold avgField at hvalid
  unfold instField
  by_cases hin : t ∈ Dict.keys (vOrd ms)
  · have ha := (mem_keys_vOrd ms t).1 hin
    simp only [if_pos hin] at hvalid ⊢
    simp only [bind_ok_iff, hz, hvalid]
    constructor
    · rintro ⟨v, hv, h⟩
      injection h with h
      exact Or.inl ⟨Or.inl ha, v, hv, h.symm⟩
    · rintro (⟨-, v, hv, rfl⟩ | ⟨h, -⟩)
      · exact ⟨v, hv, rfl⟩
      · exact absurd ha h
  · have ha : ¬ Avail ms t := fun h => hin ((mem_keys_vOrd ms t).2 h)
    simp only [if_neg hin] at hvalid ⊢
    by_cases h0 : t = 0
    · rw [if_pos h0]
      constructor
      · intro h; injection h with h; exact Or.inr ⟨ha, h0, h.symm⟩
      · rintro (⟨h, -⟩ | ⟨-, -, rfl⟩)
        · tauto
        · rfl
    · rw [if_neg h0, bisectRight_eq_left hin]
      simp only [bind_ok_iff, hz] at hvalid ⊢
      constructor
      · rintro ⟨u, hu, v, hv, h⟩
        injection h with h
        exact Or.inl ⟨Or.inr h0, v, (hvalid v).1 ⟨u, hu, hv⟩, h.symm⟩
      · rintro (⟨-, v, hv, rfl⟩ | ⟨-, h, -⟩)
        · obtain ⟨u, hu, hv⟩ := (hvalid v).2 hv
          exact ⟨u, hu, v, hv, rfl⟩
        · exact absurd h h0

theorem instField_none (ms : Messages n) (t : Int) (h0 : t ≠ 0) (hno : ∀ u, Avail ms u → u < t) :
    instField (vOrd ms) t = .error .indexError := by
  have hin : t ∉ Dict.keys (vOrd ms) :=
    fun h => absurd (hno t ((mem_keys_vOrd ms t).1 h)) (lt_irrefl _)
  unfold instField
  rw [if_neg hin, if_neg h0, bisectRight_eq_left hin, bisect_none ms t hno]
  rfl

end Aggregator
end PyG2P

namespace PyG2P
open Spec
variable {n : Nat}
namespace Aggregator

theorem rangeList_one (a b : Int) :
    rangeList a b 1 = (List.range (b - a).toNat).map fun (j : Nat) => a + (j : Int) := by
  unfold rangeList
  rw [show (b - a + 1 - 1) / 1 = b - a by simp]
  simp

/-- The sum over the hours `s+1 .. s+step` of a cell. -/
def hourSum (F : Int → Arr n) (step s : Int) (i : Fin n) : Num :=
  ((List.range step.toNat).map fun (j : Nat) => (F (s + 1 + (j : Int))).data i).sum

theorem avgVal_plain (ag : Aggregator) (hh : ag.halfweights = false) (hs : 0 < ag.aggrStep)
    (ms : Messages n) (s : Int) (m : Arr n) :
    avgVal ag (vOrd ms) s = .ok m ↔
      ∃ F : Int → Arr n, (∀ h, s < h → h ≤ s + ag.aggrStep → ValidAt ms h (F h)) ∧
        m = Arr.maskedWhere none fun i => hourSum F ag.aggrStep s i / Num.ofInt ag.aggrStep := by
  have hlen : ∀ F : Int → Arr n, ∀ i, ((rangeList (s + 1) (s + ag.aggrStep + 1) 1).map
      fun h => (F h).data i).sum = hourSum F ag.aggrStep s i := by
    intro F i
    rw [rangeList_one, List.map_map, show s + ag.aggrStep + 1 - (s + 1) = ag.aggrStep by ring]
    rfl
  have hl2 : ((rangeList (s + 1) (s + ag.aggrStep + 1) 1).length : Int) = ag.aggrStep := by
    rw [rangeList_one, List.length_map, List.length_range]; omega
  have hmem : ∀ h, h ∈ rangeList (s + 1) (s + ag.aggrStep + 1) 1 ↔ s < h ∧ h ≤ s + ag.aggrStep := by
    intro h
    rw [mem_rangeList (by omega)]
    constructor
    · rintro ⟨k, hk, hlt⟩; omega
    · rintro ⟨h1, h2⟩; exact ⟨(h - (s + 1)).toNat, by omega, by omega⟩
  unfold avgVal avgSums
  simp only [hh, Bool.false_eq_true, if_false]
  rw [pyRange_pos (by omega : (0 : Int) < 1), ok_bind]
  constructor
  · intro h
    rw [bind_ok_iff] at h
    obtain ⟨r, hr, h⟩ := h
    injection h with h
    obtain ⟨F, hF, hsum, hc⟩ := avgHours_ok ms _ _ r hr
    refine ⟨F, fun h h1 h2 => hF h ((hmem h).2 ⟨h1, h2⟩), ?_⟩
    rw [← h]
    congr 1
    funext i
    rw [hsum i, hc, hl2, hlen]
    simp only [zero_add]
  · rintro ⟨F, hF, rfl⟩
    obtain ⟨r, hr⟩ := avgHours_total ms (rangeList (s + 1) (s + ag.aggrStep + 1) 1) (fun _ => 0, 0) (by
      intro h hh'
      obtain ⟨h1, h2⟩ := (hmem h).1 hh'
      obtain ⟨u, hu, -⟩ := hF h h1 h2
      exact ⟨u, hu.1, hu.2.1⟩)
    rw [hr, ok_bind]
    obtain ⟨F', hF', hsum, hc⟩ := avgHours_ok ms _ _ r hr
    congr 1
    congr 1
    funext i
    rw [hsum i, hc, hl2, hlen]
    simp only [zero_add]
    congr 1
    unfold hourSum
    congr 1
    apply List.map_congr_left
    intro j hj
    rw [List.mem_range] at hj
    rw [ValidAt_unique (hF _ (by omega) (by omega)) (hF' _ ((hmem (s + 1 + j)).2 ⟨by omega, by omega⟩))]

theorem avgVal_plain_total (ag : Aggregator) (hh : ag.halfweights = false) (hs : 0 < ag.aggrStep)
    (ms : Messages n) (s : Int) (hex : ∃ u, Avail ms u ∧ s + ag.aggrStep ≤ u) :
    ∃ m, avgVal ag (vOrd ms) s = .ok m := by
  have : ∀ h, ∃ v : Arr n, h ≤ s + ag.aggrStep → ValidAt ms h v := by
    intro h
    by_cases hle : h ≤ s + ag.aggrStep
    · obtain ⟨u, hu, hle'⟩ := hex
      obtain ⟨v, hv⟩ := exists_valid ms h ⟨u, hu, by omega⟩
      exact ⟨v, fun _ => hv⟩
    · exact ⟨Arr.zeros, fun h => absurd h hle⟩
  choose F hF using this
  exact ⟨_, (avgVal_plain ag hh hs ms s _).2 ⟨F, fun h _ h2 => hF h h2, rfl⟩⟩

theorem avgVal_plain_fail (ag : Aggregator) (hh : ag.halfweights = false) (hs : 0 < ag.aggrStep)
    (ms : Messages n) (s : Int) (hno : ∀ u, Avail ms u → u < s + ag.aggrStep) :
    avgVal ag (vOrd ms) s = .error .indexError := by
  unfold avgVal avgSums
  simp only [hh, Bool.false_eq_true, if_false]
  rw [pyRange_pos (by omega : (0 : Int) < 1), ok_bind, avgHours_fail]
  · rfl
  · exact ⟨s + ag.aggrStep, (mem_rangeList (by omega)).2
      ⟨(ag.aggrStep - 1).toNat, by omega, by omega⟩, hno⟩

theorem average_intro (ag : Aggregator) (ms : Messages n) (hs : 0 < ag.aggrStep)
    (hst : ag.stepType ≠ PARAM_CUM) (first : Step × Arr n) (hf : ms.head? = some first) :
    ag.average ms = (rangeList ag.avgBounds.1 ag.avgBounds.2 ag.aggrStep).foldlM
      (avgIter ag (vOrd ms) first.1.resolution first.1.level) [] := by
  unfold average
  rw [if_neg hst, key_head' hf, ok_bind, pyRange_pos hs, ok_bind]

theorem instantaneous_intro (ag : Aggregator) (ms : Messages n) (hs : 0 < ag.aggrStep)
    (hst : ag.stepType ≠ PARAM_CUM) (first : Step × Arr n) (hf : ms.head? = some first) :
    ag.instantaneous ms = (rangeList ag.findStart (ag.end_ + 1) ag.aggrStep).foldlM
      (instIter ag (vOrd ms) first.1.resolution first.1.level) [] := by
  unfold instantaneous
  rw [if_neg hst, key_head' hf, ok_bind, pyRange_pos hs, ok_bind]

/-! ### replacing the fields, keeping the steps -/

theorem avail_map (ms : Messages n) (g : Step × Arr n → Arr n) (t : Int) :
    Avail (ms.map fun p => (p.1, g p)) t ↔ Avail ms t := by
  unfold Avail
  constructor
  · rintro ⟨p, hp, ht⟩
    obtain ⟨q, hq, rfl⟩ := List.mem_map.1 hp
    exact ⟨q, hq, ht⟩
  · rintro ⟨p, hp, ht⟩
    exact ⟨(p.1, g p), List.mem_map.2 ⟨p, hp, rfl⟩, ht⟩

theorem isNext_map (ms : Messages n) (g : Step × Arr n → Arr n) (t u : Int) :
    IsNext (ms.map fun p => (p.1, g p)) t u ↔ IsNext ms t u := by
  unfold IsNext; simp only [avail_map]

theorem fieldAt_map (ms : Messages n) (g : Step × Arr n → Arr n) (t : Int) :
    fieldAt (ms.map fun p => (p.1, g p)) t
      = ((ms.filter (fun p => p.1.endStep = t)).getLast?).map g := by
  unfold fieldAt
  rw [List.filter_map, List.getLast?_map, Option.map_map]
  rfl

/-- The message valid at hour `h`. -/
def MsgAt (ms : Messages n) (h : Int) (p : Step × Arr n) : Prop :=
  ∃ u, IsNext ms h u ∧ (ms.filter (fun p => p.1.endStep = u)).getLast? = some p

theorem MsgAt_unique {ms : Messages n} {h : Int} {p q : Step × Arr n} (h1 : MsgAt ms h p)
    (h2 : MsgAt ms h q) : p = q := by
  obtain ⟨u, hu, hv⟩ := h1
  obtain ⟨u', hu', hv'⟩ := h2
  rw [IsNext_unique hu hu', hv'] at hv
  exact (Option.some.inj hv).symm

theorem validAt_map (ms : Messages n) (g : Step × Arr n → Arr n) (h : Int) (v : Arr n) :
    ValidAt (ms.map fun p => (p.1, g p)) h v ↔ ∃ p, MsgAt ms h p ∧ g p = v := by
  unfold ValidAt MsgAt
  simp only [isNext_map, fieldAt_map, Option.map_eq_some_iff]
  constructor
  · rintro ⟨u, hu, p, hp, rfl⟩; exact ⟨p, ⟨u, hu, hp⟩, rfl⟩
  · rintro ⟨p, ⟨u, hu, hp⟩, rfl⟩; exact ⟨u, hu, p, hp, rfl⟩

theorem validAt_iff (ms : Messages n) (h : Int) (v : Arr n) :
    ValidAt ms h v ↔ ∃ p, MsgAt ms h p ∧ p.2 = v := by
  have := validAt_map ms (fun p => p.2) h v
  simpa using this

theorem head?_map (ms : Messages n) (g : Step × Arr n → Arr n) (p : Step × Arr n)
    (h : ms.head? = some p) : (ms.map fun p => (p.1, g p)).head? = some (p.1, g p) := by
  cases ms with
  | nil => simp at h
  | cons q ms => simp at h; subst h; rfl

theorem get?_of_range {key : Int → Step} (hkey : ∀ a b, key a = key b → a = b) {l : List Int}
    {V : Int → Arr n} {t : Int} (ht : t ∈ l) :
    Dict.get? (l.map fun t => (key t, V t)) (key t) = some (V t) := by
  induction l with
  | nil => simp at ht
  | cons u l ih =>
    rw [List.map_cons, Dict.get?_cons]
    by_cases h : u = t
    · subst h; simp
    · rw [if_neg (fun hc => h (hkey _ _ hc))]
      exact ih ((List.mem_cons.1 ht).resolve_left (Ne.symm h))

end Aggregator

namespace Num
theorem mul_add' (a b c : Num) : a * (b + c) = a * b + a * c := by
  cases a <;> cases b <;> cases c <;> simp [mul_add]
theorem mul_comm' (a b : Num) : a * b = b * a := by
  cases a <;> cases b <;> simp [mul_comm]
theorem mul_assoc' (a b c : Num) : a * b * c = a * (b * c) := by
  cases a <;> cases b <;> cases c <;> simp [mul_assoc]
theorem mul_div' (a b c : Num) : a * b / c = a * (b / c) := by
  cases a with
  | nan => simp
  | fin a => cases b with
    | nan => simp
    | fin b => cases c with
      | nan => simp
      | fin c =>
        rw [fin_mul, fin_div, fin_div]
        split
        · simp
        · rw [fin_mul, mul_div_assoc]
theorem add_div' (a b c : Num) : (a + b) / c = a / c + b / c := by
  cases a with
  | nan => simp
  | fin a => cases b with
    | nan => simp
    | fin b => cases c with
      | nan => simp
      | fin c =>
        rw [fin_add, fin_div, fin_div, fin_div]
        split
        · simp
        · rw [fin_add, add_div]
theorem sub_mul' (a b c : Num) : (a - b) * c = a * c - b * c := by
  cases a <;> cases b <;> cases c <;> simp [sub_mul]
end Num

/-- Sum of scaled and added lists. -/
theorem sum_lin {α : Type} (l : List α) (c1 c2 : ℚ) (f g : α → Num) :
    (l.map fun x => (.fin c1 : Num) * f x + .fin c2 * g x).sum
      = .fin c1 * (l.map f).sum + .fin c2 * (l.map g).sum := by
  induction l with
  | nil =>
    simp only [List.map_nil, List.sum_nil, Num.zero_def, Num.fin_mul, Num.fin_add]
    congr 1; ring
  | cons x l ih =>
    simp only [List.map_cons, List.sum_cons, ih, Num.mul_add']
    rw [add_assoc, add_assoc]
    congr 1
    rw [← add_assoc, ← add_assoc, add_comm (Num.fin c2 * g x)]

/-- Sums of finite values within bounds. -/
theorem sum_fin_bounds {α : Type} (l : List α) (f : α → Num) (lo hi : ℚ)
    (h : ∀ x ∈ l, ∃ q, f x = .fin q ∧ lo ≤ q ∧ q ≤ hi) :
    ∃ q, (l.map f).sum = .fin q ∧ l.length * lo ≤ q ∧ q ≤ l.length * hi := by
  induction l with
  | nil => exact ⟨0, rfl, by simp, by simp⟩
  | cons x l ih =>
    obtain ⟨q, h1, h2, h3⟩ := ih (fun y hy => h y (List.mem_cons_of_mem _ hy))
    obtain ⟨q', h1', h2', h3'⟩ := h x (by simp)
    refine ⟨q' + q, by rw [List.map_cons, List.sum_cons, h1, h1', Num.fin_add], ?_, ?_⟩
    · rw [List.length_cons]; push_cast; linarith
    · rw [List.length_cons]; push_cast; linarith

end PyG2P
