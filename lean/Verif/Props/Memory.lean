import Verif.Model.Memory
import Verif.Model.Messages
import Verif.Lemmas.Aggregator
import Verif.Props.Average

/-! # C16 (memory), C101: no array is altered, results are arrays of their own -/

namespace PyG2P
open Spec
variable {n : Nat} {α β γ δ κ : Type}

namespace Spec

/-- The arrays at the addresses of a dictionary are those of the other dictionary, key by key. -/
def Holds (h : Heap n) (addrs : Dict κ Nat) (maps : Dict κ (Arr n)) : Prop :=
  List.Forall₂ (fun p q => p.1 = q.1 ∧ h[p.2]? = some q.2) addrs maps

/-- Every array of `h` is still there, with the same contents. -/
def Untouched (h h' : Heap n) : Prop := ∀ (a : Nat) (v : Arr n), h[a]? = some v → h'[a]? = some v

/-- The arrays of a dictionary did not exist in `h`, and no two entries share one. -/
def Own (h : Heap n) (addrs : Dict κ Nat) : Prop := (∀ p ∈ addrs, h.length ≤ p.2) ∧ (addrs.map (·.2)).Nodup

end Spec

namespace Mem

/-- All arrays but those in `own` stay as they are. -/
def Keep (own : Nat → Prop) (h h' : Heap n) : Prop :=
  h.length ≤ h'.length ∧ ∀ a : Nat, a < h.length → ¬ own a → h'[a]? = h[a]?

def nobody : Nat → Prop := fun _ => False

/-- The statements `x`, run in memory `h`, do what the value computation `y` does. -/
def Sim (own : Nat → Prop) (h : Heap n) (x : Mem n α) (y : Py β) (R : Heap n → α → β → Prop) : Prop :=
  Keep own h (x h).2 ∧ (∀ e, (x h).1 = .error e → y = .error e) ∧
    ∀ a, (x h).1 = .ok a → ∃ b, y = .ok b ∧ R (x h).2 a b

theorem Keep.refl (own : Nat → Prop) (h : Heap n) : Keep own h h := ⟨le_refl _, fun _ _ _ => rfl⟩

theorem Keep.trans {own : Nat → Prop} {h h' h'' : Heap n} (a : Keep own h h') (b : Keep own h' h'') : Keep own h h'' :=
  ⟨le_trans a.1 b.1, fun x hx ho => by rw [b.2 x (lt_of_lt_of_le hx a.1) ho, a.2 x hx ho]⟩

theorem Keep.weaken {own own' : Nat → Prop} {h h' : Heap n} (a : Keep own h h')
    (hw : ∀ x, x < h.length → own x → own' x) : Keep own' h h' :=
  ⟨a.1, fun x hx ho => a.2 x hx (fun hc => ho (hw x hx hc))⟩

theorem Keep.untouched {h h' : Heap n} (a : Keep nobody h h') : Untouched h h' := by
  intro p v hv
  have hl : p < h.length := by
    by_contra hc
    rw [List.getElem?_eq_none (by omega)] at hv; cases hv
  rw [a.2 p hl (fun hf => hf), hv]

theorem lt_of_get {h : Heap n} {p : Nat} {v : Arr n} (hv : h[p]? = some v) : p < h.length := by
  by_contra hc
  rw [List.getElem?_eq_none (by omega)] at hv; cases hv

theorem Sim.bind {own : Nat → Prop} {h : Heap n} {x : Mem n α} {y : Py β} {f : α → Mem n γ} {g : β → Py δ}
    {R : Heap n → α → β → Prop} {R' : Heap n → γ → δ → Prop} (hx : Sim own h x y R)
    (hf : ∀ a b h', Keep own h h' → R h' a b → Sim own h' (f a) (g b) R') : Sim own h (x >>= f) (y >>= g) R' := by
  obtain ⟨hk, he, ho⟩ := hx
  have hb : (x >>= f) h = match x h with
    | (.ok a, h') => f a h'
    | (.error e, h') => (.error e, h') := rfl
  unfold Sim
  rw [hb]
  rcases hxh : x h with ⟨r, h'⟩
  rw [hxh] at hk he ho
  cases r with
  | error e =>
    refine ⟨hk, ?_, ?_⟩
    · intro e' h1
      cases h1
      rw [he e rfl]; rfl
    · intro a h1; cases h1
  | ok a =>
    obtain ⟨b, hy, hR⟩ := ho a rfl
    obtain ⟨k2, e2, o2⟩ := hf a b h' hk hR
    have hyb : (y >>= g) = g b := by rw [hy]; rfl
    rw [hyb]
    exact ⟨hk.trans k2, e2, o2⟩

theorem Sim.imp {own own' : Nat → Prop} {h : Heap n} {x : Mem n α} {y : Py β} {R R' : Heap n → α → β → Prop}
    (hx : Sim own h x y R) (hw : ∀ a, a < h.length → own a → own' a)
    (hi : ∀ h' a b, Keep own h h' → R h' a b → R' h' a b) : Sim own' h x y R' :=
  ⟨hx.1.weaken hw, hx.2.1, fun a ha => by
    obtain ⟨b, hb, hR⟩ := hx.2.2 a ha
    exact ⟨b, hb, hi _ a b hx.1 hR⟩⟩

theorem Sim.pure (own : Nat → Prop) {h : Heap n} {a : α} {b : β} {R : Heap n → α → β → Prop} (hR : R h a b) :
    Sim own h (Pure.pure a) (.ok b) R :=
  ⟨Keep.refl _ _, fun _ he => (by cases he), fun x hx => by cases hx; exact ⟨b, rfl, hR⟩⟩

theorem Sim.error (own : Nat → Prop) {h : Heap n} {e : PyErr} {R : Heap n → α → β → Prop} :
    Sim own h (lift (.error e)) (.error e) R :=
  ⟨Keep.refl _ _, fun _ he => (by cases he; rfl), fun x hx => by cases hx⟩

theorem Sim.lift (own : Nat → Prop) (h : Heap n) (y : Py α) :
    Sim own h (lift y) y (fun h' a b => h' = h ∧ a = b) :=
  ⟨Keep.refl _ _, fun _ he => he, fun a ha => ⟨a, ha, rfl, rfl⟩⟩

theorem keep_append (own : Nat → Prop) (h : Heap n) (v : Arr n) : Keep own h (h ++ [v]) := by
  refine ⟨by simp, fun a ha _ => ?_⟩
  rw [List.getElem?_append_left ha]

/-- A memory step without counterpart among the values. -/
theorem Sim.step {own : Nat → Prop} {h : Heap n} {x : Mem n α} {f : α → Mem n γ} {y : Py δ}
    {R' : Heap n → γ → δ → Prop} (a : α) (h' : Heap n) (hx : x h = (.ok a, h')) (hk : Keep own h h')
    (hf : Sim own h' (f a) y R') : Sim own h (x >>= f) y R' := by
  have hb : (x >>= f) h = f a h' := by
    change (match x h with
    | (.ok a, h') => f a h'
    | (.error e, h') => (.error e, h')) = _
    rw [hx]
  unfold Sim
  rw [hb]
  exact ⟨hk.trans hf.1, hf.2.1, hf.2.2⟩

theorem load_ok {h : Heap n} {p : Nat} {v : Arr n} (hv : h[p]? = some v) : load p h = (.ok v, h) := by
  unfold load; rw [hv]

theorem Sim.new (own : Nat → Prop) {h : Heap n} (v : Arr n) {b : β} {R : Heap n → Nat → β → Prop}
    (hR : R (h ++ [v]) h.length b) : Sim own h (new v) (.ok b) R :=
  ⟨keep_append own h v, fun _ he => (by cases he), fun x hx => by cases hx; exact ⟨b, rfl, hR⟩⟩

/-! ## dictionaries -/

theorem holds_mono {own : Nat → Prop} {h h' : Heap n} {da : Dict κ Nat} {d : Dict κ (Arr n)} (hd : Holds h da d)
    (hk : Keep own h h') (ho : ∀ p ∈ da, ¬ own p.2) : Holds h' da d := by
  unfold Holds at *
  induction hd with
  | nil => exact .nil
  | cons hh _ ih =>
    refine .cons ⟨hh.1, ?_⟩ (ih (fun p hp => ho p (List.mem_cons_of_mem _ hp)))
    rw [hk.2 _ (lt_of_get hh.2) (ho _ List.mem_cons_self), hh.2]

theorem holds_keep {h h' : Heap n} {da : Dict κ Nat} {d : Dict κ (Arr n)} (hd : Holds h da d)
    (hk : Keep nobody h h') : Holds h' da d := holds_mono hd hk (fun _ _ hf => hf)

theorem holds_keys {h : Heap n} {da : Dict κ Nat} {d : Dict κ (Arr n)} (hd : Holds h da d) :
    Dict.keys da = Dict.keys d := by
  unfold Holds Dict.keys at *
  induction hd with
  | nil => rfl
  | cons hh _ ih => rw [List.map_cons, List.map_cons, ih, hh.1]

theorem holds_lt {h : Heap n} {da : Dict κ Nat} {d : Dict κ (Arr n)} (hd : Holds h da d) :
    ∀ p ∈ da, p.2 < h.length := by
  unfold Holds at *
  induction hd with
  | nil => intro p hp; cases hp
  | cons hh _ ih =>
    intro p hp
    rcases List.mem_cons.1 hp with rfl | hp
    · exact lt_of_get hh.2
    · exact ih p hp

variable [DecidableEq κ]

theorem holds_get {h : Heap n} {da : Dict κ Nat} {d : Dict κ (Arr n)} (hd : Holds h da d) (k : κ) :
    (Dict.get? da k = none ∧ Dict.get? d k = none) ∨
      ∃ p v, Dict.get? da k = some p ∧ Dict.get? d k = some v ∧ h[p]? = some v := by
  unfold Holds at *
  induction hd with
  | nil => exact .inl ⟨rfl, rfl⟩
  | @cons a b _ _ hh _ ih =>
    obtain ⟨ka, va⟩ := a
    obtain ⟨kb, vb⟩ := b
    obtain ⟨rfl : ka = kb, hv⟩ := hh
    unfold Dict.get?
    by_cases hk : ka = k
    · rw [if_pos hk, if_pos hk]
      exact .inr ⟨va, vb, rfl, rfl, hv⟩
    · rw [if_neg hk, if_neg hk]
      exact ih

theorem holds_set {h : Heap n} {da : Dict κ Nat} {d : Dict κ (Arr n)} (hd : Holds h da d) (k : κ) {p : Nat} {v : Arr n}
    (hv : h[p]? = some v) : Holds h (Dict.set da k p) (Dict.set d k v) := by
  unfold Holds at *
  induction hd with
  | nil => exact .cons ⟨rfl, hv⟩ .nil
  | @cons a b _ _ hh ht ih =>
    obtain ⟨ka, va⟩ := a
    obtain ⟨kb, vb⟩ := b
    obtain ⟨rfl : ka = kb, hv'⟩ := hh
    unfold Dict.set
    by_cases hk : ka = k
    · rw [if_pos hk, if_pos hk]
      exact .cons ⟨rfl, hv⟩ ht
    · rw [if_neg hk, if_neg hk]
      exact .cons ⟨rfl, hv'⟩ ih

theorem Sim.getE (own : Nat → Prop) {h : Heap n} {da : Dict κ Nat} {d : Dict κ (Arr n)} (hd : Holds h da d) (k : κ) :
    Sim own h (Mem.lift (Dict.getE da k)) (Dict.getE d k) (fun h' p v => h' = h ∧ h[p]? = some v) := by
  unfold Dict.getE
  rcases holds_get hd k with ⟨h1, h2⟩ | ⟨p, v, h1, h2, hv⟩
  · rw [h1, h2]; exact Sim.error own
  · rw [h1, h2]
    exact ⟨Keep.refl _ _, fun _ he => (by cases he), fun a ha => by cases ha; exact ⟨v, rfl, rfl, hv⟩⟩

theorem set_values_nodup {da : Dict κ Nat} (k : κ) (p : Nat) (hn : (da.map (·.2)).Nodup) (hp : p ∉ da.map (·.2)) :
    ((Dict.set da k p).map (·.2)).Nodup ∧ ∀ q ∈ Dict.set da k p, q ∈ da ∨ q.2 = p := by
  induction da with
  | nil => exact ⟨by simp [Dict.set], by intro q hq; right; simp [Dict.set] at hq; rw [hq]⟩
  | cons a da ih =>
    obtain ⟨ka, va⟩ := a
    simp only [List.map_cons, List.nodup_cons, List.mem_cons, not_or] at hn hp
    unfold Dict.set
    by_cases hk : ka = k
    · rw [if_pos hk]
      refine ⟨?_, ?_⟩
      · simp only [List.map_cons, List.nodup_cons]
        exact ⟨hp.2, hn.2⟩
      · intro q hq
        rcases List.mem_cons.1 hq with rfl | hq
        · right; rfl
        · left; exact List.mem_cons_of_mem _ hq
    · rw [if_neg hk]
      obtain ⟨i1, i2⟩ := ih hn.2 hp.2
      refine ⟨?_, ?_⟩
      · simp only [List.map_cons, List.nodup_cons]
        refine ⟨fun hc => ?_, i1⟩
        obtain ⟨q, hq, hqv⟩ := List.mem_map.1 hc
        rcases i2 q hq with h1 | h1
        · exact hn.1 (hqv ▸ List.mem_map_of_mem h1)
        · exact hp.1 (by rw [← h1, hqv])
      · intro q hq
        rcases List.mem_cons.1 hq with rfl | hq
        · left; exact List.mem_cons_self
        · rcases i2 q hq with h1 | h1
          · left; exact List.mem_cons_of_mem _ h1
          · right; exact h1

omit [DecidableEq κ] in
theorem holds_map {κ' : Type} (f : κ → κ') {h : Heap n} {da : Dict κ Nat} {d : Dict κ (Arr n)} (hd : Holds h da d) :
    Holds h (da.map fun p => (f p.1, p.2)) (d.map fun p => (f p.1, p.2)) := by
  unfold Holds at *
  induction hd with
  | nil => exact .nil
  | cons hh _ ih => exact .cons ⟨congrArg f hh.1, hh.2⟩ ih

theorem holds_fold {h : Heap n} {la : Dict κ Nat} {l : Dict κ (Arr n)} (hl : Holds h la l) :
    ∀ {da : Dict κ Nat} {d : Dict κ (Arr n)}, Holds h da d →
      Holds h (la.foldl (fun d p => Dict.set d p.1 p.2) da) (l.foldl (fun d p => Dict.set d p.1 p.2) d) := by
  unfold Holds at *
  induction hl with
  | nil => intro da d hd; exact hd
  | @cons a b _ _ hh _ ih =>
    intro da d hd
    rw [List.foldl_cons, List.foldl_cons]
    apply ih
    have := holds_set hd a.1 hh.2
    rw [hh.1] at this ⊢
    exact this

theorem holds_insert {h : Heap n} {a : Int × Nat} {b : Int × Arr n} (hab : a.1 = b.1 ∧ h[a.2]? = some b.2)
    {da : Dict Int Nat} {d : Dict Int (Arr n)} (hd : Holds h da d) :
    Holds h (da.orderedInsert (fun x y => x.1 ≤ y.1) a) (d.orderedInsert (fun x y => x.1 ≤ y.1) b) := by
  unfold Holds at *
  induction hd with
  | nil => exact .cons hab .nil
  | @cons c e _ _ hh ht ih =>
    rw [List.orderedInsert_cons, List.orderedInsert_cons, hab.1, hh.1]
    split
    · exact .cons hab (.cons hh ht)
    · exact .cons hh ih

theorem holds_sorted {h : Heap n} {da : Dict Int Nat} {d : Dict Int (Arr n)} (hd : Holds h da d) :
    Holds h (sortedBy (·.1) da) (sortedBy (·.1) d) := by
  unfold sortedBy
  unfold Holds at hd
  induction hd with
  | nil => exact List.Forall₂.nil
  | cons hh _ ih =>
    rw [List.insertionSort_cons, List.insertionSort_cons]
    exact holds_insert hh ih

theorem holds_vOrd {h : Heap n} {values : Dict Step Nat} {ms : Messages n} (hv : Holds h values ms) :
    Holds h (vOrd values) (Aggregator.vOrd ms) := by
  unfold vOrd Aggregator.vOrd Dict.ofPairs
  exact holds_sorted (holds_fold (holds_map (·.endStep) hv) List.Forall₂.nil)

/-! ## the statements -/

theorem run_bind (x : Mem n α) (f : α → Mem n γ) (h : Heap n) (a : α) (h' : Heap n) (hx : x h = (.ok a, h')) :
    (x >>= f) h = f a h' := by
  change (match x h with
    | (.ok a, h') => f a h'
    | (.error e, h') => (.error e, h')) = _
  rw [hx]

theorem linInterp_run {h : Heap n} {pO pN : Nat} {vO vN : Arr n} (hO : h[pO]? = some vO) (hN : h[pN]? = some vN)
    (it o nx : Int) : linInterp pO pN it o nx h = (.ok h.length, h ++ [Aggregator.linInterp vO vN it o nx]) := by
  unfold linInterp
  rw [run_bind _ _ h vO h (load_ok hO), run_bind _ _ h vN h (load_ok hN)]
  rfl

theorem zerosPlus_run {h : Heap n} {p : Nat} {v : Arr n} (hv : h[p]? = some v) :
    zerosPlus p h = (.ok h.length, h ++ [v.intoZeros]) := by
  have hlt := lt_of_get hv
  unfold zerosPlus
  rw [run_bind _ _ h h.length (h ++ [Arr.zeros]) rfl,
    run_bind _ _ _ v _ (load_ok (by rw [List.getElem?_append_left hlt, hv])),
    run_bind _ _ _ Arr.zeros _ (load_ok (by rw [List.getElem?_concat_length])),
    run_bind (store _ _) _ _ () ((h ++ [Arr.zeros]).set h.length _) rfl]
  change (Except.ok h.length, (h ++ [Arr.zeros]).set h.length _) = _
  rw [List.set_append_right _ _ (le_refl _), Nat.sub_self]
  rfl

theorem sim_zerosPlus {h : Heap n} {p : Nat} {v : Arr n} (hv : h[p]? = some v) :
    Sim nobody h (zerosPlus p) (.ok v.intoZeros) (fun h' q w => h'[q]? = some w ∧ q = h.length) := by
  unfold Sim
  rw [zerosPlus_run hv]
  exact ⟨keep_append _ _ _, fun _ he => (by cases he), fun a ha => by
    cases ha; exact ⟨_, rfl, by rw [List.getElem?_concat_length], rfl⟩⟩

theorem sim_accFillCur {h : Heap n} {vo : Dict Int Nat} {vo' : Dict Int (Arr n)} (hd : Holds h vo vo') (keys : List Int)
    (it : Int) : Sim nobody h (accFillCur keys vo it) (Aggregator.accFillCur keys vo' it) Holds := by
  unfold accFillCur Aggregator.accFillCur
  split
  · exact Sim.pure _ hd
  · refine Sim.bind (Sim.lift _ _ _) ?_
    rintro nx _ h1 - ⟨rfl, rfl⟩
    refine Sim.bind (Sim.getE _ hd nx) ?_
    rintro pN vN h1 - ⟨rfl, hN⟩
    dsimp only
    refine Sim.bind (Sim.lift _ _ _) ?_
    rintro o _ h1 - ⟨rfl, rfl⟩
    refine Sim.bind (Sim.getE _ hd o) ?_
    rintro pO vO h1 - ⟨rfl, hO⟩
    refine Sim.step h1.length (h1 ++ [Aggregator.linInterp vO vN it o nx]) (linInterp_run hO hN it o nx)
      (keep_append _ _ _) ?_
    exact Sim.pure _ (holds_set (holds_keep hd (keep_append _ _ _)) it (by rw [List.getElem?_concat_length]))

theorem sim_accFillPrev {h : Heap n} {vo : Dict Int Nat} {vo' : Dict Int (Arr n)} (hd : Holds h vo vo') (keys : List Int)
    (zero : Bool) (it prev : Int) : Sim nobody h (accFillPrev keys vo zero it prev)
      (Aggregator.accFillPrev keys vo' zero it prev) (fun h' a b => Holds h' a.1 b.1 ∧ a.2 = b.2) := by
  unfold accFillPrev Aggregator.accFillPrev
  split
  · refine Sim.bind (Sim.lift _ _ _) ?_
    rintro nx _ h1 - ⟨rfl, rfl⟩
    split
    · refine Sim.step h1.length (h1 ++ [Arr.zeros]) rfl (keep_append _ _ _) ?_
      refine Sim.pure _ ⟨?_, rfl⟩
      exact holds_set (holds_keep hd (keep_append _ _ _)) 0 (by rw [List.getElem?_concat_length])
    · refine Sim.bind (Sim.getE _ hd nx) ?_
      rintro pN vN h1 - ⟨rfl, hN⟩
      dsimp only
      refine Sim.bind (Sim.lift _ _ _) ?_
      rintro o _ h1 - ⟨rfl, rfl⟩
      refine Sim.bind (Sim.getE _ hd o) ?_
      rintro pO vO h1 - ⟨rfl, hO⟩
      refine Sim.step h1.length (h1 ++ [Aggregator.linInterp vO vN it o nx]) (linInterp_run hO hN it o nx)
        (keep_append _ _ _) ?_
      exact Sim.pure _
        ⟨holds_set (holds_keep hd (keep_append _ _ _)) prev (by rw [List.getElem?_concat_length]), rfl⟩
  · exact Sim.pure _ ⟨hd, rfl⟩

theorem sim_accPrev {h : Heap n} {vo : Dict Int Nat} {vo' : Dict Int (Arr n)} (hd : Holds h vo vo') (ag : Aggregator)
    (prev : Int) : Sim nobody h (accPrev ag vo prev) (Aggregator.accPrev ag vo' prev) (fun h' p v => h'[p]? = some v) := by
  unfold accPrev Aggregator.accPrev
  split
  · exact Sim.new _ _ (by rw [List.getElem?_concat_length])
  · exact (Sim.getE _ hd prev).imp (fun _ _ hf => hf) (fun h' a b _ hR => by rw [hR.1]; exact hR.2)

/-- The maps produced so far: equal to those of the value computation, in arrays of their own. -/
def Made (base : Nat) (h : Heap n) (out : Dict Step Nat) (out' : Dict Step (Arr n)) : Prop :=
  Holds h out out' ∧ (∀ p ∈ out, base ≤ p.2) ∧ (out.map (·.2)).Nodup

theorem made_keep {base : Nat} {h h' : Heap n} {out : Dict Step Nat} {out' : Dict Step (Arr n)} (hm : Made base h out out')
    (hk : Keep nobody h h') : Made base h' out out' := ⟨holds_keep hm.1 hk, hm.2⟩

theorem made_set {base : Nat} {h : Heap n} {out : Dict Step Nat} {out' : Dict Step (Arr n)} (hm : Made base h out out')
    (hb : base ≤ h.length) (key : Step) (v : Arr n) :
    Made base (h ++ [v]) (Dict.set out key h.length) (Dict.set out' key v) := by
  have hnew : h.length ∉ out.map (·.2) := by
    intro hc
    obtain ⟨q, hq, hqv⟩ := List.mem_map.1 hc
    have := holds_lt hm.1 q hq
    omega
  obtain ⟨h1, h2⟩ := set_values_nodup key h.length hm.2.2 hnew
  refine ⟨holds_set (holds_keep hm.1 (keep_append _ _ _)) key (by rw [List.getElem?_concat_length]), ?_, h1⟩
  intro p hp
  rcases h2 p hp with h3 | h3
  · exact hm.2.1 p h3
  · rw [h3]; exact hb

def AccRel (base : Nat) (h : Heap n) (st : AccSt) (st' : Aggregator.AccSt n) : Prop :=
  Holds h st.vOrd st'.vOrd ∧ st.zero = st'.zero ∧ Made base h st.out st'.out

theorem sim_accIter {base : Nat} {h : Heap n} {st : AccSt} {st' : Aggregator.AccSt n} (hs : AccRel base h st st')
    (hb : base ≤ h.length) (ag : Aggregator) (res lvl it : Int) :
    Sim nobody h (accIter ag res lvl st it) (Aggregator.accIter ag res lvl st' it) (AccRel base) := by
  obtain ⟨hd, hz, hm⟩ := hs
  unfold accIter Aggregator.accIter
  rw [holds_keys hd, hz]
  refine Sim.bind (sim_accFillCur hd _ it) ?_
  intro vo1 vo1' h1 k1 hd1
  dsimp only
  refine Sim.bind (sim_accFillPrev hd1 _ _ it _) ?_
  rintro ⟨vo2, z2⟩ ⟨vo2', z2'⟩ h2 k2 ⟨hd2, hz2⟩
  dsimp only at hd2 hz2 ⊢
  subst hz2
  refine Sim.bind (sim_accPrev hd2 ag _) ?_
  intro pPrev vPrev h3 k3 hP
  have hd3 := holds_keep hd2 k3
  refine Sim.bind (Sim.getE _ hd3 it) ?_
  rintro pIt vIt h4 - ⟨rfl, hI⟩
  have hm4 := made_keep (made_keep (made_keep hm k1) k2) k3
  refine Sim.step h4.length (h4 ++ [vIt.intoZeros]) (zerosPlus_run hI) (keep_append _ _ _) ?_
  refine Sim.step vIt.intoZeros _ (load_ok (by rw [List.getElem?_concat_length])) (Keep.refl _ _) ?_
  refine Sim.step vPrev _ (load_ok (by rw [List.getElem?_append_left (lt_of_get hP), hP])) (Keep.refl _ _) ?_
  refine Sim.step (h4 ++ [vIt.intoZeros]).length ((h4 ++ [vIt.intoZeros]) ++ [Aggregator.accOut ag vIt vPrev]) rfl
    (keep_append _ _ _) ?_
  have kk : Keep nobody h4 ((h4 ++ [vIt.intoZeros]) ++ [Aggregator.accOut ag vIt vPrev]) :=
    (keep_append _ _ _).trans (keep_append _ _ _)
  refine Sim.pure _ ⟨holds_keep hd3 kk, rfl, ?_⟩
  refine made_set (made_keep hm4 (keep_append _ _ _)) ?_ _ _
  have := k1.1; have := k2.1; have := k3.1
  simp only [List.length_append, List.length_cons, List.length_nil]
  omega

/-- Loops. -/
theorem sim_fold {h : Heap n} {I : Heap n → α → β → Prop} {own : Nat → Prop} (f : α → δ → Mem n α) (g : β → δ → Py β)
    (hI : ∀ h' a b x, h.length ≤ h'.length → I h' a b → Sim own h' (f a x) (g b x) I) (l : List δ) :
    ∀ (h' : Heap n) (a : α) (b : β), h.length ≤ h'.length → I h' a b → Sim own h' (l.foldlM f a) (l.foldlM g b) I := by
  induction l with
  | nil => intro h' a b _ hab; exact Sim.pure _ hab
  | cons x l ih =>
    intro h' a b hl hab
    rw [List.foldlM_cons, List.foldlM_cons]
    refine Sim.bind (hI h' a b x hl hab) ?_
    intro a' b' h2 hk hab'
    exact ih h2 a' b' (le_trans hl hk.1) hab'

theorem sim_accumulation {h : Heap n} {values : Dict Step Nat} {ms : Messages n} (hv : Holds h values ms)
    (ag : Aggregator) : Sim nobody h (accumulation ag values) (ag.accumulation ms) (Made h.length) := by
  unfold accumulation Aggregator.accumulation
  rw [holds_keys hv]
  refine Sim.bind (Sim.lift _ _ _) ?_
  rintro first _ h1 - ⟨rfl, rfl⟩
  refine Sim.bind (Sim.lift _ _ _) ?_
  rintro its _ h1 - ⟨rfl, rfl⟩
  refine Sim.bind (sim_fold (h := h1) (I := AccRel h1.length) _ _ ?_ its h1 ⟨vOrd values, false, []⟩
    ⟨Aggregator.vOrd ms, false, []⟩ (le_refl _) ?_) ?_
  · intro h' a b x hl hab
    exact sim_accIter hab hl ag _ _ x
  · exact ⟨holds_vOrd hv, rfl, List.Forall₂.nil, by simp, by simp⟩
  · intro a b h' _ hR
    exact Sim.pure _ hR.2.2

/-! ### average -/

/-- The running sum in place against the running sum by value. -/
def SumRel (vo : Dict Int Nat) (vo' : Dict Int (Arr n)) (ts : Nat) (h : Heap n) (c : Num) (acc : (Fin n → Num) × Num) :
    Prop := Holds h vo vo' ∧ h[ts]? = some ⟨acc.1, none⟩ ∧ c = acc.2

theorem addTo_run {h : Heap n} {ts : Nat} {s : Fin n → Num} (ht : h[ts]? = some ⟨s, none⟩) (v : Arr n) :
    addTo ts v h = (.ok (), h.set ts ⟨fun i => s i + v.data i, none⟩) := by
  unfold addTo
  rw [run_bind _ _ h ⟨s, none⟩ h (load_ok ht)]
  rfl

theorem keep_set (h : Heap n) (ts : Nat) (v : Arr n) : Keep (· = ts) h (h.set ts v) := by
  refine ⟨by rw [List.length_set], fun a _ ha => ?_⟩
  rw [List.getElem?_set_ne (fun hc => ha hc.symm)]

theorem sumRel_add {vo : Dict Int Nat} {vo' : Dict Int (Arr n)} {ts : Nat} {h : Heap n} {c : Num}
    {acc : (Fin n → Num) × Num} (hs : SumRel vo vo' ts h c acc) (ho : ∀ p ∈ vo, p.2 ≠ ts) (v : Arr n) (w : Num) :
    SumRel vo vo' ts (h.set ts ⟨fun i => acc.1 i + v.data i, none⟩) (c + w) (fun i => acc.1 i + v.data i, acc.2 + w) := by
  refine ⟨holds_mono hs.1 (keep_set h ts _) (fun p hp hc => ho p hp hc), ?_, by rw [hs.2.2]⟩
  rw [List.getElem?_set_self (lt_of_get hs.2.1)]

theorem sim_avgHour {vo : Dict Int Nat} {vo' : Dict Int (Arr n)} {ts : Nat} {h : Heap n} {c : Num}
    {acc : (Fin n → Num) × Num} (hs : SumRel vo vo' ts h c acc) (ho : ∀ p ∈ vo, p.2 ≠ ts) (t : Int) :
    Sim (· = ts) h (avgHour vo ts c t) (Aggregator.avgHour vo' acc t) (SumRel vo vo' ts) := by
  have hfield : Sim (· = ts) h (avgField vo t) (Aggregator.avgField vo' t) (fun h' p v => h' = h ∧ h[p]? = some v) := by
    unfold avgField Aggregator.avgField
    rw [holds_keys hs.1]
    split
    · exact Sim.getE _ hs.1 t
    · refine Sim.bind (Sim.lift _ _ _) ?_
      rintro nx _ h1 - ⟨rfl, rfl⟩
      exact Sim.getE _ hs.1 nx
  unfold avgHour Aggregator.avgHour
  refine Sim.bind hfield ?_
  rintro p v h1 - ⟨rfl, hv⟩
  refine Sim.step v h1 (load_ok hv) (Keep.refl _ _) ?_
  refine Sim.step () _ (addTo_run hs.2.1 v) (keep_set _ _ _) ?_
  exact Sim.pure _ (sumRel_add hs ho v 1)

theorem sim_halfHour {vo : Dict Int Nat} {vo' : Dict Int (Arr n)} {ts : Nat} {h : Heap n} {c : Num}
    {acc : (Fin n → Num) × Num} (hs : SumRel vo vo' ts h c acc) (ho : ∀ p ∈ vo, p.2 ≠ ts) (f g : Int) (d1 d2 : Num)
    (t : Int) : Sim (· = ts) h (halfHour vo f g d1 d2 ts c t) (Aggregator.halfHour vo' f g d1 d2 acc t)
      (SumRel vo vo' ts) := by
  unfold halfHour Aggregator.halfHour
  rw [holds_keys hs.1]
  by_cases ht : t ∈ Dict.keys vo'
  · rw [if_pos ht, if_pos ht]
    refine Sim.bind (Sim.getE _ hs.1 t) ?_
    rintro p v h1 - ⟨rfl, hv⟩
    refine Sim.step v h1 (load_ok hv) (Keep.refl _ _) ?_
    dsimp only
    generalize (if t = f ∨ t = g - 1 then d2 else d1) = w
    refine Sim.step h1.length (h1 ++ [v.scale w]) rfl (keep_append _ _ _) ?_
    refine Sim.step (v.scale w) _ (load_ok (by rw [List.getElem?_concat_length])) (Keep.refl _ _) ?_
    have hs2 : SumRel vo vo' ts (h1 ++ [v.scale w]) c acc :=
      ⟨holds_keep hs.1 (keep_append _ _ _), by rw [List.getElem?_append_left (lt_of_get hs.2.1), hs.2.1], hs.2.2⟩
    refine Sim.step () _ (addTo_run hs2.2.1 (v.scale w)) (keep_set _ _ _) ?_
    exact Sim.pure _ (sumRel_add hs2 ho (v.scale w) w)
  · rw [if_neg ht, if_neg ht]
    exact Sim.pure _ hs

theorem sim_avgSums {vo : Dict Int Nat} {vo' : Dict Int (Arr n)} {ts : Nat} {h : Heap n} (hd : Holds h vo vo')
    (ho : ∀ p ∈ vo, p.2 ≠ ts) (hz : h[ts]? = some Arr.zeros) (ag : Aggregator) (it : Int) :
    Sim (· = ts) h (avgSums ag vo ts it) (Aggregator.avgSums ag vo' it) (SumRel vo vo' ts) := by
  have h0 : SumRel vo vo' ts h 0 (fun _ => 0, 0) := ⟨hd, hz, rfl⟩
  unfold avgSums Aggregator.avgSums
  rw [holds_keys hd]
  dsimp only
  split
  · refine Sim.bind (Sim.lift _ _ _) ?_
    rintro hours _ h1 - ⟨rfl, rfl⟩
    split
    · exact sim_fold (h := h1) (I := SumRel vo vo' ts) _ _ (fun h' a b x _ hab => sim_halfHour hab ho _ _ _ _ x) hours h1
        0 (fun _ => 0, 0) (le_refl _) h0
    · exact Sim.pure _ h0
  · refine Sim.bind (Sim.lift _ _ _) ?_
    rintro hours _ h1 - ⟨rfl, rfl⟩
    exact sim_fold (h := h1) (I := SumRel vo vo' ts) _ _ (fun h' a b x _ hab => sim_avgHour hab ho x) hours h1
      0 (fun _ => 0, 0) (le_refl _) h0

theorem sim_avgIter {base : Nat} {h : Heap n} {vo : Dict Int Nat} {vo' : Dict Int (Arr n)} {out : Dict Step Nat}
    {out' : Dict Step (Arr n)} (hd : Holds h vo vo') (hm : Made base h out out') (hb : base ≤ h.length) (ag : Aggregator)
    (res lvl it : Int) : Sim nobody h (avgIter ag vo res lvl out it) (Aggregator.avgIter ag vo' res lvl out' it)
      (fun h' a b => Holds h' vo vo' ∧ Made base h' a b) := by
  have hd1 : Holds (h ++ [Arr.zeros]) vo vo' := holds_keep hd (keep_append _ _ _)
  have hne : ∀ p ∈ vo, p.2 ≠ h.length := fun p hp hc => by have := holds_lt hd p hp; omega
  have hsum := sim_avgSums hd1 hne (by rw [List.getElem?_concat_length]) ag it
  have key : Sim (· = h.length) (h ++ [Arr.zeros]) (do
      let c ← avgSums ag vo h.length it
      let key : Step := ⟨it, it + ag.aggrStep, res, ag.aggrStep, lvl⟩
      let t ← load h.length
      let o ← new (Arr.maskedWhere none fun i => t.data i / c)
      Pure.pure (Dict.set out key o)) (Aggregator.avgIter ag vo' res lvl out' it)
      (fun h' a b => Holds h' vo vo' ∧ Made base h' a b) := by
    unfold Aggregator.avgIter
    refine Sim.bind hsum ?_
    rintro c ⟨s, c'⟩ h2 k2 ⟨hv2, ht2, hc⟩
    dsimp only at hc ht2 ⊢
    subst hc
    refine Sim.step ⟨s, none⟩ h2 (load_ok ht2) (Keep.refl _ _) ?_
    refine Sim.step h2.length (h2 ++ [Arr.maskedWhere none fun i => s i / c]) rfl (keep_append _ _ _) ?_
    have hm2 : Made base h2 out out' := by
      refine ⟨holds_mono (holds_keep hm.1 (keep_append _ _ Arr.zeros)) k2 ?_, hm.2⟩
      intro p hp hc
      have := holds_lt hm.1 p hp
      omega
    refine Sim.pure _ ⟨holds_keep hv2 (keep_append _ _ _), made_set hm2 ?_ _ _⟩
    have := k2.1
    rw [List.length_append] at this
    omega
  unfold avgIter
  refine ⟨?_, ?_⟩
  · rw [run_bind _ _ h h.length (h ++ [Arr.zeros]) rfl]
    refine ⟨?_, ?_⟩
    · have := key.1.1
      rw [List.length_append] at this
      exact le_trans (Nat.le_add_right _ _) this
    · intro a ha _
      rw [key.1.2 a (by rw [List.length_append]; omega) (by omega), List.getElem?_append_left ha]
  · rw [run_bind _ _ h h.length (h ++ [Arr.zeros]) rfl]
    exact key.2

theorem sim_average {h : Heap n} {values : Dict Step Nat} {ms : Messages n} (hv : Holds h values ms)
    (ag : Aggregator) : Sim nobody h (average ag values) (ag.average ms) (Made h.length) := by
  unfold average Aggregator.average
  split
  · exact Sim.error _
  · rw [holds_keys hv]
    refine Sim.bind (Sim.lift _ _ _) ?_
    rintro first _ h1 - ⟨rfl, rfl⟩
    refine Sim.bind (Sim.lift _ _ _) ?_
    rintro its _ h1 - ⟨rfl, rfl⟩
    refine Sim.imp (sim_fold (h := h1) (I := fun h' a b => Holds h' (vOrd values) (Aggregator.vOrd ms) ∧ Made h1.length h' a b)
      _ _ ?_ its h1 [] [] (le_refl _) ?_) (fun _ _ hf => hf) (fun _ _ _ _ hR => hR.2)
    · intro h' a b x hl hab
      exact sim_avgIter hab.1 hab.2 hl ag _ _ x
    · exact ⟨holds_vOrd hv, List.Forall₂.nil, by simp, by simp⟩

theorem sim_instField {h : Heap n} {vo : Dict Int Nat} {vo' : Dict Int (Arr n)} (hd : Holds h vo vo') (it : Int) :
    Sim nobody h (instField vo it) (Aggregator.instField vo' it) (fun h' p v => p = h.length ∧ h' = h ++ [v]) := by
  unfold instField Aggregator.instField
  rw [holds_keys hd]
  have hz : ∀ (p : Nat) (v : Arr n), h[p]? = some v →
      Sim nobody h (zerosPlus p) (.ok v.intoZeros) (fun h' p v => p = h.length ∧ h' = h ++ [v]) := by
    intro p v hp
    unfold Sim
    rw [zerosPlus_run hp]
    exact ⟨keep_append _ _ _, fun _ he => (by cases he), fun a ha => by cases ha; exact ⟨_, rfl, rfl, rfl⟩⟩
  split
  · refine Sim.bind (Sim.getE _ hd it) ?_
    rintro p v h1 - ⟨rfl, hp⟩
    exact hz p v hp
  · split
    · exact Sim.new _ _ ⟨rfl, rfl⟩
    · refine Sim.bind (Sim.lift _ _ _) ?_
      rintro nx _ h1 - ⟨rfl, rfl⟩
      refine Sim.bind (Sim.getE _ hd nx) ?_
      rintro p v h1 - ⟨rfl, hp⟩
      exact hz p v hp

theorem sim_instantaneous {h : Heap n} {values : Dict Step Nat} {ms : Messages n} (hv : Holds h values ms)
    (ag : Aggregator) : Sim nobody h (instantaneous ag values) (ag.instantaneous ms) (Made h.length) := by
  unfold instantaneous Aggregator.instantaneous
  split
  · exact Sim.error _
  · rw [holds_keys hv]
    refine Sim.bind (Sim.lift _ _ _) ?_
    rintro first _ h1 - ⟨rfl, rfl⟩
    refine Sim.bind (Sim.lift _ _ _) ?_
    rintro its _ h1 - ⟨rfl, rfl⟩
    refine Sim.imp (sim_fold (h := h1) (I := fun h' a b => Holds h' (vOrd values) (Aggregator.vOrd ms) ∧ Made h1.length h' a b)
      _ _ ?_ its h1 [] [] (le_refl _) ?_) (fun _ _ hf => hf) (fun _ _ _ _ hR => hR.2)
    · intro h' a b x hl hab
      unfold instIter Aggregator.instIter
      refine Sim.bind (sim_instField hab.1 x) ?_
      rintro p v h2 - ⟨rfl, rfl⟩
      exact Sim.pure _ ⟨holds_keep hab.1 (keep_append _ _ _), made_set hab.2 hl _ _⟩
    · exact ⟨holds_vOrd hv, List.Forall₂.nil, by simp, by simp⟩

theorem sim_doManipulation {h : Heap n} {values : Dict Step Nat} {ms : Messages n} (hv : Holds h values ms)
    (ag : Aggregator) : Sim nobody h (doManipulation ag values) (ag.doManipulation ms) (Made h.length) := by
  unfold doManipulation Aggregator.doManipulation
  split
  · exact sim_accumulation hv ag
  · split
    · exact sim_average hv ag
    · split
      · exact sim_instantaneous hv ag
      · exact Sim.error _

/-! ### conversion and cut-off -/

theorem sim_convert {h : Heap n} {p : Nat} {v : Arr n} (hp : h[p]? = some v) (ne : NumExpr) (c : Converter) :
    Sim nobody h (convert ne c p) (Converter.convert ne c v) (fun h' q w => h'[q]? = some w) := by
  unfold convert Converter.convert
  split
  · exact Sim.pure _ hp
  · cases c.evalText with
    | none => exact Sim.error _
    | some s =>
      dsimp only
      cases ne s with
      | none => exact Sim.error _
      | some g =>
        refine Sim.step v h (load_ok hp) (Keep.refl _ _) ?_
        refine Sim.new _ _ ?_
        rw [List.getElem?_concat_length]
        cases v.mask <;> rfl

theorem sim_convertDict (ne : NumExpr) (c : Converter) : ∀ {h : Heap n} {da : Dict Step Nat} {d : Messages n},
    Holds h da d → Sim nobody h (convertDict ne c da) (MsgSet.convertDict ne c d) Holds := by
  intro h da d hd
  unfold Holds at hd
  unfold MsgSet.convertDict
  induction da generalizing h d with
  | nil => cases hd; exact Sim.pure _ List.Forall₂.nil
  | cons a da ih =>
    obtain ⟨k, p⟩ := a
    cases hd with
    | @cons _ b _ d hh ht =>
      obtain ⟨kb, v⟩ := b
      obtain ⟨rfl : k = kb, hp⟩ := hh
      rw [List.mapM_cons]
      unfold convertDict
      have hx := sim_convert hp ne c
      have e : (do
          let y ← (do
            let a ← Converter.convert ne c v
            Except.ok (k, a) : Py (Step × Arr n))
          let ys ← d.mapM (fun p : Step × Arr n => (do
            let a ← Converter.convert ne c p.2
            Except.ok (p.1, a) : Py (Step × Arr n)))
          pure (y :: ys) : Py (List (Step × Arr n))) = (do
          let a ← Converter.convert ne c v
          let ys ← d.mapM (fun p : Step × Arr n => (do
            let a ← Converter.convert ne c p.2
            Except.ok (p.1, a) : Py (Step × Arr n)))
          pure ((k, a) :: ys) : Py (List (Step × Arr n))) := by
        cases Converter.convert ne c v <;> rfl
      refine Eq.mpr (congrArg (fun y => Sim nobody h _ y _) e) ?_
      refine Sim.bind hx ?_
      intro q w h1 k1 hq
      refine Sim.bind (ih (holds_keep ht k1)) ?_
      intro da' d' h2 k2 hd'
      exact Sim.pure _ (List.Forall₂.cons ⟨rfl, by rw [k2.2 _ (lt_of_get hq) (fun hf => hf), hq]⟩ hd')

theorem sim_cutOff : ∀ {h : Heap n} {da : Dict Step Nat} {d : Messages n}, Holds h da d →
    Sim nobody h (cutOffNegative da) (.ok (Converter.cutOffNegative d)) (Made h.length) := by
  intro h da d hd
  unfold Holds at hd
  induction da generalizing h d with
  | nil => cases hd; exact Sim.pure _ ⟨List.Forall₂.nil, by simp, by simp⟩
  | cons a da ih =>
    obtain ⟨k, p⟩ := a
    cases hd with
    | @cons _ b _ d hh ht =>
      obtain ⟨kb, v⟩ := b
      obtain ⟨rfl : k = kb, hp⟩ := hh
      unfold cutOffNegative
      refine Sim.step v h (load_ok hp) (Keep.refl _ _) ?_
      refine Sim.step h.length (h ++ [Converter.cutOffField v]) rfl (keep_append _ _ _) ?_
      have e : (Except.ok (Converter.cutOffNegative ((k, v) :: d)) : Py (Dict Step (Arr n))) =
        (do
          let r ← (Except.ok (Converter.cutOffNegative d) : Py (Dict Step (Arr n)))
          Except.ok ((k, Converter.cutOffField v) :: r)) := rfl
      refine Eq.mpr (congrArg (fun y => Sim nobody _ _ y _) e) ?_
      refine Sim.bind (ih (holds_keep ht (keep_append _ _ _))) ?_
      intro da' d' h2 k2 hm
      refine Sim.pure _ ⟨List.Forall₂.cons ⟨rfl, ?_⟩ hm.1, ?_, ?_⟩
      · rw [k2.2 _ (by simp) (fun hf => hf), List.getElem?_concat_length]
      · intro q hq
        rcases List.mem_cons.1 hq with rfl | hq
        · exact le_refl _
        · have := hm.2.1 q hq
          rw [List.length_append] at this
          omega
      · rw [List.map_cons, List.nodup_cons]
        refine ⟨fun hc => ?_, hm.2.2⟩
        obtain ⟨q, hq, hqv⟩ := List.mem_map.1 hc
        have := hm.2.1 q hq
        simp only [List.length_append, List.length_cons, List.length_nil] at this
        dsimp only at hqv
        omega

end Mem

/-- **C16.** Aggregation, run on array objects with its in-place additions, ends in an exception exactly when the
computation on values does, and with the same one; else its maps are those of that computation. In both cases every array that
existed before is as it was, and the maps are new arrays, no two of them the same object. -/
theorem aggregation_memory (ag : Aggregator) (h : Heap n) (values : Dict Step Nat) (ms : Messages n)
    (hv : Holds h values ms) :
    Untouched h (Mem.doManipulation ag values h).2 ∧
    (∀ e, (Mem.doManipulation ag values h).1 = .error e ↔ ag.doManipulation ms = .error e) ∧
    ∀ out, (Mem.doManipulation ag values h).1 = .ok out → ∃ maps, ag.doManipulation ms = .ok maps ∧
      Holds (Mem.doManipulation ag values h).2 out maps ∧ Own h out := by
  obtain ⟨hk, he, ho⟩ := Mem.sim_doManipulation hv ag
  refine ⟨hk.untouched, fun e => ⟨he e, fun hy => ?_⟩, fun out hout => ?_⟩
  · cases hr : (Mem.doManipulation ag values h).1 with
    | error e' =>
      have := he e' hr
      rw [hy] at this
      cases this; rfl
    | ok out =>
      obtain ⟨b, hb, _⟩ := ho out hr
      rw [hy] at hb; cases hb
  · obtain ⟨b, hb, hm⟩ := ho out hout
    exact ⟨b, hb, hm.1, hm.2⟩

/-- **C101.** Conversion, aggregation and cut-off of one resolution, run on array objects: the fields read are as they
were; the maps are new arrays holding the converted, aggregated and cut values. -/
theorem manipulation_memory (ne : NumExpr) (c : Converter) (ag : Aggregator) (h : Heap n) (values : Dict Step Nat)
    (ms : Messages n) (hv : Holds h values ms) :
    Untouched h (Mem.manipulate ne c ag values h).2 ∧
    ∀ out, (Mem.manipulate ne c ag values h).1 = .ok out → ∃ conv maps,
      MsgSet.convertDict ne c ms = .ok conv ∧ ag.doManipulation conv = .ok maps ∧ Own h out ∧
      Holds (Mem.manipulate ne c ag values h).2 out (if c.cutOff then Converter.cutOffNegative maps else maps) := by
  have key : Mem.Sim Mem.nobody h (Mem.manipulate ne c ag values) (do
      let conv ← MsgSet.convertDict ne c ms
      let maps ← ag.doManipulation conv
      Except.ok (conv, maps)) (fun h' out r => Own h out ∧
        Holds h' out (if c.cutOff then Converter.cutOffNegative r.2 else r.2)) := by
    unfold Mem.manipulate
    refine Mem.Sim.bind (Mem.sim_convertDict ne c hv) ?_
    intro v conv h1 k1 hc
    refine Mem.Sim.bind (Mem.sim_doManipulation hc ag) ?_
    intro out maps h2 k2 hm
    cases c.cutOff with
    | false => exact Mem.Sim.pure _ ⟨⟨fun p hp => le_trans k1.1 (hm.2.1 p hp), hm.2.2⟩, hm.1⟩
    | true =>
      obtain ⟨k3, e3, o3⟩ := Mem.sim_cutOff hm.1
      refine ⟨k3, fun e he => ?_, fun a ha => ?_⟩
      · cases e3 e he
      · obtain ⟨b, hb, hm3⟩ := o3 a ha
        cases hb
        exact ⟨_, rfl, ⟨fun p hp => le_trans (le_trans k1.1 k2.1) (hm3.2.1 p hp), hm3.2.2⟩, hm3.1⟩
  refine ⟨key.1.untouched, fun out hout => ?_⟩
  obtain ⟨r, hr, h1, h2⟩ := key.2.2 out hout
  cases hcv : MsgSet.convertDict ne c ms with
  | error e => rw [hcv] at hr; cases hr
  | ok conv =>
    rw [hcv] at hr
    cases hag : ag.doManipulation conv with
    | error e =>
      change (do
        let maps ← ag.doManipulation conv
        Except.ok (conv, maps) : Py _) = _ at hr
      rw [hag] at hr; cases hr
    | ok maps =>
      change (do
        let maps ← ag.doManipulation conv
        Except.ok (conv, maps) : Py _) = _ at hr
      rw [hag] at hr
      cases hr
      exact ⟨conv, maps, rfl, hag, h1, h2⟩

namespace Demo

/-- Three fields in memory, the dictionary of the messages holds their addresses. -/
def heap : Heap 1 := [f 1, f 2, f 5]
def addrs : Dict Step Nat := [(⟨0, 0, 640, 6, 0⟩, 0), (⟨0, 6, 640, 6, 0⟩, 1), (⟨6, 12, 640, 6, 0⟩, 2)]

end Demo

/-- A run in memory: the fields stay in place, every interval gets an array of its own. -/
example : Holds Demo.heap Demo.addrs
      [(⟨0, 0, 640, 6, 0⟩, Demo.f 1), (⟨0, 6, 640, 6, 0⟩, Demo.f 2), (⟨6, 12, 640, 6, 0⟩, Demo.f 5)] ∧
    (Mem.doManipulation (Demo.acc 6 12 6) Demo.addrs Demo.heap).1 =
      .ok [(⟨0, 6, 640, 6, 0⟩, 4), (⟨6, 12, 640, 6, 0⟩, 6)] ∧
    (Mem.doManipulation (Demo.acc 6 12 6) Demo.addrs Demo.heap).2.take 3 = Demo.heap := by
  refine ⟨?_, by decide +kernel, by decide +kernel⟩
  exact .cons ⟨rfl, rfl⟩ (.cons ⟨rfl, rfl⟩ (.cons ⟨rfl, rfl⟩ .nil))

end PyG2P
