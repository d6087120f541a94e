import Verif.Props.Context
import Mathlib.Data.Nat.Digits.Lemmas

/-! # C32, C33: numbers given as text in the commands file -/

namespace PyG2P

namespace Spec
/-- The text with these digits, most significant first. -/
def digitsText (ds : List Nat) : Str := ds.map Nat.digitChar

/-- `s` is a non-empty row of the characters 0 to 9. -/
def IsNumeral (s : Str) : Prop := s ≠ [] ∧ ∀ c ∈ s, '0' ≤ c ∧ c ≤ '9'
end Spec

theorem isDigit_iff (s : Str) : Str.isDigit s = true ↔ Spec.IsNumeral s := by
  unfold Str.isDigit Spec.IsNumeral
  rw [Bool.and_eq_true, decide_eq_true_eq, List.all_eq_true]
  unfold Str.isDigitChar
  simp only [decide_eq_true_eq]

theorem digitChar_facts : ∀ d, d < 10 → (Nat.digitChar d).toNat = 48 + d ∧ '0' ≤ Nat.digitChar d ∧ Nat.digitChar d ≤ '9' := by
  decide

theorem natOf_digits (ds : List Nat) (h : ∀ d ∈ ds, d < 10) : Str.natOf (Spec.digitsText ds) = Nat.ofDigits 10 ds.reverse := by
  suffices H : ∀ (ds : List Nat) (a : Nat), (∀ d ∈ ds, d < 10) →
      (Spec.digitsText ds).foldl (fun n c => 10 * n + (c.toNat - 48)) a = a * 10 ^ ds.length + Nat.ofDigits 10 ds.reverse by
    have := H ds 0 h
    rw [Nat.zero_mul, Nat.zero_add] at this
    exact this
  intro ds
  induction ds with
  | nil => intro a _; simp [Spec.digitsText]
  | cons d ds ih =>
    intro a h
    have hd := (digitChar_facts d (h d List.mem_cons_self)).1
    have := ih (10 * a + d) fun x hx => h x (List.mem_cons_of_mem _ hx)
    unfold Spec.digitsText at this ⊢
    rw [List.map_cons, List.foldl_cons, hd, Nat.add_sub_cancel_left, this, List.reverse_cons, Nat.ofDigits_append,
      List.length_cons, List.length_reverse, Nat.ofDigits_singleton]
    ring

theorem numeral_digits (ds : List Nat) (h0 : ds ≠ []) (h : ∀ d ∈ ds, d < 10) : Spec.IsNumeral (Spec.digitsText ds) := by
  constructor
  · intro h1; exact h0 (List.map_eq_nil_iff.1 h1)
  · intro c hc
    obtain ⟨d, hd, rfl⟩ := List.mem_map.1 hc
    exact (digitChar_facts d (h d hd)).2

theorem toInt_plain (s : Str) (h : Spec.IsNumeral s) : Str.toInt s = .ok (Str.natOf s) := by
  unfold Str.toInt
  split
  · exact absurd (h.2 _ List.mem_cons_self).1 (by decide)
  · exact absurd (h.2 _ List.mem_cons_self).1 (by decide)
  · rw [if_pos ((isDigit_iff s).2 h)]

/-- C32: a number written as text in the commands file, with or without a sign, counts as that number. -/
theorem text_number (c : Cli) (j : Json) (tblDir geoDir : Str) (hc : c.start = none) (ds : List Nat) (h0 : ds ≠ [])
    (hd : ∀ d ∈ ds, d < 10) :
    (j.tstart = .str (Spec.digitsText ds) →
      optValue c j tblDir geoDir .tstart = .ok (.int ((Nat.ofDigits 10 ds.reverse : Nat) : Int))) ∧
    (j.tstart = .str ('+' :: Spec.digitsText ds) →
      optValue c j tblDir geoDir .tstart = .ok (.int ((Nat.ofDigits 10 ds.reverse : Nat) : Int))) ∧
    (j.tstart = .str ('-' :: Spec.digitsText ds) →
      optValue c j tblDir geoDir .tstart = .ok (.int (-((Nat.ofDigits 10 ds.reverse : Nat) : Int)))) := by
  have e : optValue c j tblDir geoDir .tstart = intOpt c.start j.tstart := rfl
  have hn := numeral_digits ds h0 hd
  have hi : ∀ s : Str, s ≠ [] → intOpt none (.str s) = (Str.toInt s).map .int := by
    intro s hs
    unfold intOpt
    dsimp only
    unfold JVal.truthy JVal.toInt
    dsimp only
    rw [if_pos (decide_eq_true hs)]
  rw [e, hc]
  refine ⟨fun h => ?_, fun h => ?_, fun h => ?_⟩
  · rw [h, hi _ hn.1, toInt_plain _ hn, natOf_digits ds hd]
    rfl
  · rw [h, hi _ (by simp)]
    have : Str.toInt ('+' :: Spec.digitsText ds) = if Str.isDigit (Spec.digitsText ds) then .ok ((Str.natOf (Spec.digitsText ds) : Nat) : Int) else .error .valueError := rfl
    rw [this, if_pos ((isDigit_iff _).2 hn), natOf_digits ds hd]
    rfl
  · rw [h, hi _ (by simp)]
    have : Str.toInt ('-' :: Spec.digitsText ds) = if Str.isDigit (Spec.digitsText ds) then .ok (-((Str.natOf (Spec.digitsText ds) : Nat) : Int)) else .error .valueError := rfl
    rw [this, if_pos ((isDigit_iff _).2 hn), natOf_digits ds hd]
    rfl

/-- C32: any other text is refused with `ValueError`. -/
theorem text_not_number (c : Cli) (j : Json) (tblDir geoDir : Str) (hc : c.start = none) (s : Str) (h0 : s ≠ [])
    (h : ¬ Spec.IsNumeral s) (hm : ∀ r, s = '-' :: r → ¬ Spec.IsNumeral r) (hp : ∀ r, s = '+' :: r → ¬ Spec.IsNumeral r)
    (hj : j.tstart = .str s) : optValue c j tblDir geoDir .tstart = .error .valueError := by
  have e : optValue c j tblDir geoDir .tstart = intOpt c.start j.tstart := rfl
  rw [e, hc, hj]
  unfold intOpt
  dsimp only
  unfold JVal.truthy JVal.toInt
  dsimp only
  rw [if_pos (decide_eq_true h0)]
  unfold Str.toInt
  split
  · rename_i r
    rw [if_neg fun hh => hm r rfl ((isDigit_iff r).1 hh)]
    rfl
  · rename_i r
    rw [if_neg fun hh => hp r rfl ((isDigit_iff r).1 hh)]
    rfl
  · rw [if_neg fun hh => h ((isDigit_iff s).1 hh)]
    rfl

/-- "0120" is 120, "-6" is -6, "6h" is refused. -/
example : Spec.digitsText [0, 1, 2, 0] = "0120".toList ∧ Nat.ofDigits 10 [0, 1, 2, 0].reverse = 120 := by decide +kernel
example : Str.toInt "-6".toList = .ok (-6) ∧ Str.toInt "6h".toList = .error .valueError := by decide +kernel

end PyG2P
