import Verif.Model.Conversion
import Verif.Props.Accumulation

/-! # Conversion and negative cut-off: C17, C18, C19 -/

namespace PyG2P
open Spec Converter
variable {n : Nat}

/-- The function text of a conversion that only starts with `x=`: `func = "x=" ++ t` and `x=` occurs
nowhere in `t`. -/
def Spec.OnlyLeading (t : Str) : Prop := ∀ a b : Str, t ≠ a ++ "x=".toList ++ b

theorem removeAll_none {old : Str} (t : Str) (h : ∀ a b : Str, t ≠ a ++ old ++ b) :
    Str.removeAll old t = t := by
  unfold Str.removeAll
  induction t with
  | nil => rfl
  | cons c s ih =>
    have h1 : ¬ old.isPrefixOf (c :: s) = true := by
      intro hp
      obtain ⟨b, hb⟩ := List.isPrefixOf_iff_prefix.1 hp
      exact h [] b (by simpa using hb.symm)
    have h2 := ih (fun a b hab => h (c :: a) b (by simp [hab]))
    simp only [Str.removeGo, h1, if_false, Bool.false_eq_true, h2]

theorem removeAll_leading (t : Str) (h : OnlyLeading t) :
    Str.removeAll "x=".toList ("x=".toList ++ t) = t := by
  have := removeAll_none (old := "x=".toList) t h
  have h0 : "x=".toList = ['x', '='] := rfl
  rw [h0] at this ⊢
  simpa [Str.removeAll, Str.removeGo] using this

/-- C18 (partial: the text after `x=` must not contain `x=` again, see `C18_violated`): the converter
evaluates exactly the configured text after the leading `x=`. -/
theorem C18_text_partial (ne : NumExpr) (t : Str) (f : Num → Num) (cut : Bool) (mv : Num) (x : Arr n)
    (hlead : OnlyLeading t) (hid : t ≠ "x".toList) (hf : ne t = some f) :
    ∃ r, convert ne ((Converter.init (some ("x=".toList ++ t)) cut).setMissingValue mv) x = .ok r ∧
      ∀ i, r.data i = if (x.data i).neb mv then f (x.data i) else mv := by
  have h0 : "x=".toList = ['x', '='] := rfl
  have h1 : ("x=".toList ++ t = "x=x".toList) = False := by
    have : "x=x".toList = ['x', '=', 'x'] := rfl
    have h2 : "x".toList = ['x'] := rfl
    rw [h0, this]; rw [h2] at hid; simpa using hid
  have h3 : Converter.init (some ("x=".toList ++ t)) cut = ⟨false, some t, .fin (-1), cut⟩ := by
    have h4 := removeAll_leading t hlead
    rw [h0] at h1 h4 ⊢
    unfold Converter.init
    simp only [List.cons_append, List.nil_append] at h1 h4 ⊢
    rw [if_neg (by rw [h1]; exact id), h0, h4]
  rw [h3]
  cases hm : x.mask with
  | none => exact ⟨Arr.plain fun i => if (x.data i).neb mv then f (x.data i) else mv, by simp [convert, setMissingValue, hf, hm]; rfl, fun i => rfl⟩
  | some m =>
    exact ⟨Arr.maskedWhere (some m) fun i => if (x.data i).neb mv then f (x.data i) else mv, by simp [convert, setMissingValue, hf, hm]; rfl, fun i => rfl⟩

/-- Non-vacuity: a Kelvin to Celsius conversion. -/
example : OnlyLeading "x-273.15".toList := by
  intro a b h
  have : 'x' ∈ "x-273.15".toList := by decide
  have h2 : '=' ∈ "x-273.15".toList := by rw [h]; simp
  revert h2; decide

/-- C18 is false in general: a comparison with `x` in the formula is torn apart: the text evaluated for
`x=where(x==0,1,x)` is `where(=0,1,x)`. -/
theorem C18_violated : (Converter.init (some "x=where(x==0,1,x)".toList) false).evalText =
    some "where(=0,1,x)".toList := by decide +kernel

/-- C17: for every field and every conversion text with meaning `f`, the converted field keeps every
missing cell, has `f` applied to every other cell, and has exactly the mask of the input (a plain array
stays plain). -/
theorem C17_conversion (ne : NumExpr) (t : Str) (f : Num → Num) (cut : Bool) (mv : ℚ) (x : Arr n)
    (hlead : OnlyLeading t) (hid : t ≠ "x".toList) (hf : ne t = some f) :
    ∃ r, convert ne ((Converter.init (some ("x=".toList ++ t)) cut).setMissingValue (.fin mv)) x = .ok r ∧
      (∀ i, x.data i = .fin mv → r.data i = .fin mv) ∧
      (∀ i, x.data i ≠ .fin mv → r.data i = f (x.data i)) ∧
      r.mask = x.mask := by
  obtain ⟨r, hr, hd⟩ := C18_text_partial ne t f cut (.fin mv) x hlead hid hf
  refine ⟨r, hr, ?_, ?_, ?_⟩
  · intro i hi; rw [hd i, hi]; simp [Num.neb]
  · intro i hi
    rw [hd i]
    cases hx : x.data i with
    | nan => rfl
    | fin q =>
      have : q ≠ mv := by rintro rfl; exact hi hx
      simp [Num.neb, this]
  · revert hr
    unfold convert
    split_ifs
    · intro h; cases h; rfl
    · split
      · intro h; cases h
      · split
        · intro h; cases h
        · intro h; cases h; cases hm : x.mask <;> rfl

/-- C17, identity: `x=x` returns the very same field, whatever the missing value. -/
theorem C17_identity (ne : NumExpr) (cut : Bool) (mv : Num) (x : Arr n) :
    convert ne ((Converter.init (some "x=x".toList) cut).setMissingValue mv) x = .ok x := by
  have : Converter.init (some "x=x".toList) cut = ⟨true, none, .fin (-1), cut⟩ := by rfl
  rw [this]; rfl

/-- Non-vacuity: three cells — missing, valid, masked. -/
example : ∃ r : Arr 3, convert (fun t => if t = "x*2".toList then some (fun a => a * .fin 2) else none)
      ((Converter.init (some "x=x*2".toList) false).setMissingValue (.fin 9999))
      ⟨fun i => if i = 0 then .fin 9999 else .fin 5, some fun i => decide (i = 2)⟩ = .ok r ∧
    r.data 0 = .fin 9999 ∧ r.data 1 = .fin 10 ∧ r.mask = some fun i => decide (i = 2) :=
  ⟨⟨fun i => if i = 0 then .fin 9999 else .fin 10, some fun i => decide (i = 2)⟩, by decide +kernel, by decide +kernel,
    by decide +kernel, rfl⟩

/-- C19 (partial: masked cells do not stay masked, see `C19_mask_dropped`): after cut-off the maps are
the same set under the same keys in the same order, no cell is negative, non-negative (and non-finite)
cells are unchanged, and cutting off twice changes nothing. -/
theorem C19_cut_off_partial {κ : Type} (xs : Dict κ (Arr n)) :
    Dict.keys (cutOffNegative xs) = Dict.keys xs ∧
    (∀ k a', (k, a') ∈ cutOffNegative xs → ∀ i, ∀ q : ℚ, a'.data i = .fin q → 0 ≤ q) ∧
    (∀ (j : Nat) k a, xs[j]? = some (k, a) → ∃ a', (cutOffNegative xs)[j]? = some (k, a') ∧
      ∀ i, (∀ q : ℚ, a.data i = .fin q → 0 ≤ q) → a'.data i = a.data i) ∧
    cutOffNegative (cutOffNegative xs) = cutOffNegative xs := by
  have key : ∀ a : Arr n, ∀ i, ∀ q : ℚ, (cutOffField a).data i = .fin q → 0 ≤ q := by
    intro a i q h
    simp only [cutOffField, Arr.plain] at h
    by_cases hl : (a.data i).ltb 0
    · rw [if_pos hl] at h; cases h; exact le_refl _
    · rw [if_neg hl] at h
      rw [h] at hl
      have : ¬ q < 0 := by simpa [Num.ltb, Num.zero_def, Num.ofNat_def] using hl
      exact not_lt.1 this
  have key2 : ∀ a : Arr n, ∀ i, (∀ q : ℚ, a.data i = .fin q → 0 ≤ q) →
      (cutOffField a).data i = a.data i := by
    intro a i h
    simp only [cutOffField, Arr.plain]
    rw [if_neg]
    cases hx : a.data i with
    | nan => simp [Num.ltb]
    | fin q =>
      have := h q hx
      simp [Num.ltb, Num.zero_def, Num.ofNat_def, this]
  refine ⟨?_, ?_, ?_, ?_⟩
  · simp [Dict.keys, cutOffNegative]
  · intro k a' h i q hq
    simp only [cutOffNegative, List.mem_map] at h
    obtain ⟨p, _, hp⟩ := h
    cases hp
    exact key _ i q hq
  · intro j k a h
    exact ⟨cutOffField a, by simp [cutOffNegative, h], fun i hi => key2 a i hi⟩
  · simp only [cutOffNegative, List.map_map]
    apply List.map_congr_left
    intro p _
    simp only [Function.comp]
    congr 1
    have h1 : (cutOffField (cutOffField p.2)).data = (cutOffField p.2).data := by
      funext i; exact key2 _ i (key p.2 i)
    have h2 : cutOffField (cutOffField p.2) = ⟨(cutOffField (cutOffField p.2)).data, none⟩ := rfl
    rw [h2, h1]; rfl

example : cutOffNegative [(1, Demo.f (-3)), (2, Demo.f 4)] = [(1, Demo.f 0), (2, Demo.f 4)] := by
  decide +kernel

/-- C19 is false for masks: a masked cell comes out unmasked. -/
theorem C19_mask_dropped : ∃ (a : Arr 1), a.masked 0 = true ∧
    ∀ k : Nat, ∃ a', (k, a') ∈ cutOffNegative [(k, a)] ∧ a'.masked 0 = false :=
  ⟨Demo.fm 3, rfl, fun k => ⟨cutOffField (Demo.fm 3), by simp [cutOffNegative], rfl⟩⟩

end PyG2P
