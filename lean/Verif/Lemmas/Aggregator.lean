import Verif.Lemmas.Py
import Verif.Model.Aggregator
import Verif.Spec.Aggregation

/-! # Lemmas about the aggregation model -/

namespace PyG2P
open Spec
variable {n : Nat}

theorem Num.zero_add' (a : Num) : (0 : Num) + a = a := by
  cases a <;> simp [Num.zero_def]

/-! ## the ordered dictionary -/
namespace Aggregator

theorem nodup_keys_vOrd (ms : Messages n) : (Dict.keys (vOrd ms)).Nodup := by
  unfold vOrd
  have h := (sortedBy_perm (·.1) (Dict.ofPairs (ms.map fun p => (p.1.endStep, p.2)))).map (·.1)
  exact h.nodup_iff.2 (Dict.nodup_keys_ofPairs _)

theorem get?_vOrd (ms : Messages n) (t : Int) : Dict.get? (vOrd ms) t = fieldAt ms t := by
  unfold vOrd
  rw [Dict.get?_perm (sortedBy_perm _ _) (nodup_keys_vOrd ms), Dict.get?_ofPairs]
  unfold Dict.lastPair fieldAt
  rw [List.filter_map, List.getLast?_map, Option.map_map]
  rfl

theorem keys_vOrd_sorted (ms : Messages n) : (Dict.keys (vOrd ms)).Pairwise (· < ·) := by
  have h1 : (Dict.keys (vOrd ms)).Pairwise (· ≤ ·) := by
    unfold Dict.keys vOrd
    rw [List.pairwise_map]
    exact sortedBy_pairwise _ _
  have h2 := nodup_keys_vOrd ms
  exact List.Pairwise.imp₂ (fun _ _ hab hne => lt_of_le_of_ne hab hne) h1 h2

theorem avail_iff (ms : Messages n) (t : Int) : Avail ms t ↔ (fieldAt ms t).isSome := by
  unfold Avail fieldAt
  rw [Option.isSome_map, List.getLast?_isSome]
  constructor
  · rintro ⟨p, hp, rfl⟩ hc
    rw [List.filter_eq_nil_iff] at hc
    exact absurd (by simp) (hc p hp)
  · intro h
    obtain ⟨p, hp⟩ := List.exists_mem_of_ne_nil _ h
    rw [List.mem_filter] at hp
    exact ⟨p, hp.1, by simpa using hp.2⟩

theorem mem_keys_vOrd (ms : Messages n) (t : Int) : t ∈ Dict.keys (vOrd ms) ↔ Avail ms t := by
  rw [← Dict.get?_isSome_iff, get?_vOrd, avail_iff]

end Aggregator

/-! ## bisect on an arbitrary list -/

theorem bisectLeftGo_any (a : List Int) (x : Int) :
    ∀ fuel lo hi, hi ≤ a.length → hi ≤ lo + fuel → lo ≤ hi →
      (0 < lo → a.getD (lo - 1) 0 < x) → (hi < a.length → x ≤ a.getD hi 0) →
      bisectLeftGo a x fuel lo hi ≤ a.length ∧
      (0 < bisectLeftGo a x fuel lo hi → a.getD (bisectLeftGo a x fuel lo hi - 1) 0 < x) ∧
      (bisectLeftGo a x fuel lo hi < a.length → x ≤ a.getD (bisectLeftGo a x fuel lo hi) 0) := by
  intro fuel
  induction fuel with
  | zero =>
    intro lo hi h1 h2 h3 hl hr
    have : lo = hi := by omega
    subst this
    exact ⟨h1, hl, hr⟩
  | succ fuel ih =>
    intro lo hi h1 h2 h3 hl hr
    unfold bisectLeftGo
    by_cases hlt : lo < hi
    · simp only [hlt, if_true]
      by_cases hx : a.getD ((lo + hi) / 2) 0 < x
      · simp only [hx, if_true]
        exact ih _ _ h1 (by omega) (by omega) (fun _ => by simpa using hx) hr
      · simp only [hx, if_false]
        exact ih _ _ (by omega) (by omega) (by omega) hl (fun _ => by omega)
    · simp only [hlt, if_false]
      have : lo = hi := by omega
      subst this
      exact ⟨h1, hl, hr⟩

theorem bisectLeft_any (a : List Int) (x : Int) :
    bisectLeft a x ≤ a.length ∧
    (0 < bisectLeft a x → a.getD (bisectLeft a x - 1) 0 < x) ∧
    (bisectLeft a x < a.length → x ≤ a.getD (bisectLeft a x) 0) :=
  bisectLeftGo_any a x a.length 0 a.length (le_refl _) (by omega) (by omega)
    (by omega) (by omega)

namespace Aggregator

/-- The core of gap filling: on `sorted keys ++ smaller keys` a successful search for a missing `x`
with an available step before it yields exactly its two neighbours in the sorted part. -/
theorem bracket_of_search (S A : List Int) (x : Int) (hS : S.Pairwise (· < ·))
    (hA : ∀ k ∈ A, k < x) (hx : x ∉ S) (hlow : ∃ u ∈ S, u < x) (nx : Int)
    (hn : pyGet (S ++ A) (bisectLeft (S ++ A) x : Int) = .ok nx) :
    ∃ r : Nat, bisectLeft (S ++ A) x = r + 1 ∧ S[r + 1]? = some nx ∧ x < nx ∧
      ∃ o, S[r]? = some o ∧ o < x ∧ pyGet (S ++ A) ((r : Nat) : Int) = .ok o ∧
      (∀ u ∈ S, u < x → u ≤ o) ∧ (∀ u ∈ S, x < u → nx ≤ u) := by
  obtain ⟨hle, hlo, hhi⟩ := bisectLeft_any (S ++ A) x
  set r := bisectLeft (S ++ A) x with hr
  rw [pyGet_ok_iff _ _ _ (by omega)] at hn
  simp only [Int.toNat_natCast] at hn
  have hrlt : r < (S ++ A).length := by
    by_contra hc
    rw [List.getElem?_eq_none (by omega)] at hn
    simp at hn
  have hxnx : x ≤ nx := by
    have := hhi hrlt
    rwa [List.getD_eq_getElem?_getD, hn] at this
  have hrS : r < S.length := by
    by_contra hc
    rw [List.getElem?_append_right (by omega)] at hn
    have := hA nx (List.mem_of_getElem? hn)
    omega
  rw [List.getElem?_append_left hrS] at hn
  have hnxS : nx ∈ S := List.mem_of_getElem? hn
  have hxlt : x < nx := lt_of_le_of_ne hxnx (fun h => hx (h ▸ hnxS))
  have hmono : ∀ i j (hi : i < S.length) (hj : j < S.length), i < j → S[i] < S[j] :=
    fun i j hi hj hij => List.pairwise_iff_getElem.1 hS i j hi hj hij
  have hget : S[r] = nx := by
    rw [List.getElem?_eq_getElem hrS] at hn; simpa using hn
  have hrpos : 0 < r := by
    by_contra hc
    have h0 : r = 0 := by omega
    obtain ⟨u, hu, hux⟩ := hlow
    obtain ⟨i, hi, rfl⟩ := List.getElem_of_mem hu
    rcases Nat.eq_zero_or_pos i with h | h
    · simp only [h0] at hget; subst h; omega
    · have := hmono 0 i (by omega) hi h
      simp only [h0] at hget; omega
  obtain ⟨r', hr'⟩ : ∃ r', r = r' + 1 := ⟨r - 1, by omega⟩
  have hr'S : r' < S.length := by omega
  have hol : S[r'] < x := by
    have := hlo hrpos
    rw [hr', Nat.add_sub_cancel, List.getD_eq_getElem?_getD,
      List.getElem?_append_left hr'S, List.getElem?_eq_getElem hr'S] at this
    simpa using this
  have hgt' : S[r' + 1]'(by omega) = nx := by simpa [hr'] using hget
  refine ⟨r', hr', ?_, hxlt, S[r'], List.getElem?_eq_getElem hr'S, hol, ?_, ?_, ?_⟩
  · rw [← hr']; exact hn
  · apply pyGet_natCast
    rw [List.getElem?_append_left hr'S, List.getElem?_eq_getElem hr'S]
  · intro u hu hux
    obtain ⟨i, hi, rfl⟩ := List.getElem_of_mem hu
    rcases Nat.lt_trichotomy i r' with h | h | h
    · exact le_of_lt (hmono i r' hi hr'S h)
    · subst h; exact le_refl _
    · rcases Nat.lt_or_ge (r' + 1) i with h2 | h2
      · have := hmono (r' + 1) i (by omega) hi h2
        omega
      · have : i = r' + 1 := by omega
        subst this; omega
  · intro u hu hux
    obtain ⟨i, hi, rfl⟩ := List.getElem_of_mem hu
    rcases Nat.lt_or_ge i (r' + 1) with h | h
    · rcases Nat.lt_or_ge i r' with h2 | h2
      · have := hmono i r' hi hr'S h2; omega
      · have : i = r' := by omega
        subst this; omega
    · rcases Nat.lt_or_ge (r' + 1) i with h2 | h2
      · have := hmono (r' + 1) i (by omega) hi h2; omega
      · have : i = r' + 1 := by omega
        subst this; omega

end Aggregator
end PyG2P
