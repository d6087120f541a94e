import Verif.Props.ArgParse

/-! # Grouped switches and ambiguous names (C159) -/

namespace PyG2P
open ArgParse

namespace Spec

/-- A letter of an option without value, as `B` in `-B`. -/
def SwitchLetter (c : Char) : Prop := ∃ e ∈ switches, e.1.toList = ['-', c]

/-- A letter of an option with a value, as `s` in `-s`. -/
def ValueLetter (c : Char) : Prop := ∃ e ∈ valued, e.1.toList = ['-', c]

/-- The beginning of two or more names, and not itself a name. -/
def Ambiguous (n : Str) : Prop :=
  n = "-v".toList ∨
  (['-', '-'] <+: n ∧ 2 < n.length ∧ (∀ l ∈ longNames, n ≠ l.toList) ∧
    ∃ l ∈ longNames, ∃ m ∈ longNames, l ≠ m ∧ n <+: l.toList ∧ n <+: m.toList)

end Spec

namespace ArgParse

theorem classifyAll_append (A X : List Str) (hA : ['-', '-'] ∉ A) : classifyAll (A ++ X) =
    match classifyAll A with
    | some ta => (classifyAll X).map fun l => ta ++ l
    | none => none := by
  induction A with
  | nil =>
    show classifyAll X = (classifyAll X).map fun l => [] ++ l
    cases classifyAll X <;> rfl
  | cons s A ih =>
    have hs : s ≠ ['-', '-'] := fun e => hA (e ▸ List.mem_cons_self)
    have ih := ih fun h => hA (List.mem_cons_of_mem _ h)
    rw [List.cons_append]
    cases hc : classify s with
    | none =>
      rw [classifyAll, if_neg hs, hc, classifyAll, if_neg hs, hc]
    | some t =>
      rw [classifyAll_cons hc hs, classifyAll_cons hc hs, ih]
      cases classifyAll A with
      | none => rfl
      | some ta => cases classifyAll X <;> rfl

/-- the first token is no value. -/
def Headed (l : List (Str × Tok)) : Prop := ∀ s rest, l ≠ (s, .arg) :: rest

theorem consume_prefix (X Y : List (Str × Tok)) (h : ∀ d e, consume X d e = consume Y d e) (hX : Headed X)
    (hY : Headed Y) (n : Nat) : ∀ ta : List (Str × Tok), ta.length ≤ n → ∀ d e,
      consume (ta ++ X) d e = consume (ta ++ Y) d e := by
  induction n with
  | zero =>
    intro ta hn d e
    rw [List.length_eq_zero_iff.1 (Nat.le_zero.1 hn)]
    exact h d e
  | succ n ih =>
    intro ta hn d e
    cases ta with
    | nil => exact h d e
    | cons t ta =>
      have hlen : ta.length ≤ n := Nat.le_of_succ_le_succ hn
      obtain ⟨s, t⟩ := t
      cases t with
      | arg =>
        rw [List.cons_append, List.cons_append, consume, consume]
        exact ih ta hlen _ _
      | unknown =>
        rw [List.cons_append, List.cons_append, consume, consume]
        exact ih ta hlen _ _
      | opt o long attached =>
        rw [List.cons_append, List.cons_append, consume, consume]
        cases resolve o long attached with
        | none => rfl
        | some q =>
          obtain ⟨pre, o', v'⟩ := q
          cases v' with
          | some v =>
            dsimp only
            cases actAll pre d with
            | error x => rfl
            | ok d1 =>
              dsimp only
              cases act o' v d1 with
              | error x => rfl
              | ok d2 => exact ih ta hlen _ _
          | none =>
            dsimp only
            by_cases ht : o'.takes = true
            · rw [if_pos ht, if_pos ht]
              cases ta with
              | nil =>
                rw [List.nil_append, List.nil_append]
                have refuse : ∀ Z : List (Str × Tok), Headed Z → (match Z with
                    | (v, .arg) :: rest' =>
                      match actAll pre d with
                      | .error e => .error e
                      | .ok d1 => match act o' v d1 with
                        | .error e => .error e
                        | .ok d2 => consume rest' d2 e
                    | _ => .error .refused : Except Stop (Dict Str JVal × Bool)) = .error .refused := by
                  intro Z hZ
                  cases Z with
                  | nil => rfl
                  | cons z Z =>
                    obtain ⟨s, z⟩ := z
                    cases z with
                    | arg => exact absurd rfl (hZ s Z)
                    | unknown => rfl
                    | opt _ _ _ => rfl
                exact (refuse X hX).trans (refuse Y hY).symm
              | cons u ta =>
                obtain ⟨w, u⟩ := u
                rw [List.cons_append, List.cons_append]
                cases u with
                | unknown => rfl
                | opt _ _ _ => rfl
                | arg =>
                  dsimp only
                  cases actAll pre d with
                  | error x => rfl
                  | ok d1 =>
                    dsimp only
                    cases act o' w d1 with
                    | error x => rfl
                    | ok d2 => exact ih ta (Nat.le_of_succ_le hlen) _ _
            · rw [if_neg ht, if_neg ht]
              cases actAll pre d with
              | error x => rfl
              | ok d1 =>
                dsimp only
                cases act o' [] d1 with
                | error x => rfl
                | ok d2 => exact ih ta hlen _ _

/-- the option of a switch letter. -/
theorem letter_switch {c : Char} (h : Spec.SwitchLetter c) : ∃ o, findOpt ['-', c] = some o ∧ o.kind = .flag ∧
    c ≠ '=' ∧ c ≠ '-' := by
  obtain ⟨e, he, hc⟩ := h
  obtain ⟨o, h1, -, h3, -⟩ := named_switch he (Or.inl hc.symm)
  have hall : ∀ e ∈ Spec.switches, e.1.toList[1]? ≠ some '=' ∧ e.1.toList[1]? ≠ some '-' := by decide +kernel
  have := hall e he
  rw [hc] at this
  exact ⟨o, h1, h3, fun e => this.1 (by rw [e]; rfl), fun e => this.2 (by rw [e]; rfl)⟩

/-- the option of a letter with value. -/
theorem letter_value {c : Char} (h : Spec.ValueLetter c) : ∃ o, findOpt ['-', c] = some o ∧ o.takes = true ∧
    c ≠ '=' ∧ c ≠ '-' := by
  obtain ⟨e, he, hc⟩ := h
  obtain ⟨o, h1, -, h3, -⟩ := named_option he (Or.inl hc.symm)
  have hall : ∀ e ∈ Spec.valued, e.1.toList[1]? ≠ some '=' ∧ e.1.toList[1]? ≠ some '-' := by decide +kernel
  have := hall e he
  rw [hc] at this
  exact ⟨o, h1, (takes_kind h3).1, fun e => this.1 (by rw [e]; rfl), fun e => this.2 (by rw [e]; rfl)⟩

/-- no text attached. -/
def attachedOf (v : Str) : Option Str := if v = [] then none else some v

theorem chain_group (c : Char) (v : Str) (oc : OptSpec) (hc : findOpt ['-', c] = some oc)
    (hv : oc.takes = true ∨ v = []) (letters : List Char) : ∀ o : OptSpec, o.takes = false →
      (∀ x ∈ letters, Spec.SwitchLetter x) → ∃ os : List OptSpec, os.length = letters.length ∧
        (∀ (i : Nat) (x : Char), letters[i]? = some x → ∃ q, os[i]? = some q ∧ findOpt ['-', x] = some q) ∧
        chain o (letters ++ c :: v) = some (o :: os, oc, attachedOf v) := by
  induction letters with
  | nil =>
    intro o ho _
    refine ⟨[], rfl, (by intro i x h; cases i <;> cases h), ?_⟩
    show chain o (c :: v) = _
    rw [chain, if_neg (by rw [ho]; exact Bool.false_ne_true), hc]
    dsimp only
    unfold attachedOf
    by_cases h0 : v = []
    · rw [if_pos h0, if_pos h0]
    · rw [if_neg h0, if_neg h0, chain_takes (hv.resolve_right h0)]
      rfl
  | cons x letters ih =>
    intro o ho hl
    obtain ⟨ox, h1, h2, -, -⟩ := letter_switch (hl x List.mem_cons_self)
    have hox : ox.takes = false := by unfold OptSpec.takes; rw [h2]
    obtain ⟨os, e1, e2, e3⟩ := ih ox hox fun y hy => hl y (List.mem_cons_of_mem _ hy)
    refine ⟨ox :: os, by rw [List.length_cons, e1]; rfl, ?_, ?_⟩
    · intro i y hy
      cases i with
      | zero =>
        injection hy with hy
        exact ⟨ox, rfl, hy ▸ h1⟩
      | succ i => exact e2 i y hy
    · rw [List.cons_append, chain, if_neg (by rw [ho]; exact Bool.false_ne_true), h1]
      dsimp only
      rw [if_neg (by simp), e3]
      rfl

/-- what the switches set. -/
def flagged (l : List OptSpec) (d : Dict Str JVal) : Dict Str JVal :=
  l.foldl (fun d o => Dict.set d o.dest (.bool true)) d

theorem act_flag {o : OptSpec} (h : o.kind = .flag) (d : Dict Str JVal) : act o [] d = .ok (Dict.set d o.dest (.bool true)) := by
  unfold act
  rw [h]
  rfl

theorem actAll_flags (l : List OptSpec) (h : ∀ o ∈ l, o.kind = .flag) (d : Dict Str JVal) :
    actAll l d = .ok (flagged l d) := by
  induction l generalizing d with
  | nil => rfl
  | cons o l ih =>
    unfold actAll
    rw [List.foldlM_cons, act_flag (h o List.mem_cons_self)]
    exact ih (fun q hq => h q (List.mem_cons_of_mem _ hq)) _

theorem consume_flag {o : OptSpec} (h : o.kind = .flag) (s : Str) (rest : List (Str × Tok)) (d : Dict Str JVal) (e : Bool) :
    consume ((s, .opt o false none) :: rest) d e = consume rest (Dict.set d o.dest (.bool true)) e := by
  have ht : o.takes = false := by unfold OptSpec.takes; rw [h]
  rw [consume]
  unfold resolve
  dsimp only
  rw [if_neg (by rw [ht]; exact Bool.false_ne_true), actAll_flags [] (by simp)]
  dsimp only
  rw [act_flag h]
  rfl

theorem consume_flags (l : List (Str × OptSpec)) (h : ∀ o ∈ l, o.2.kind = .flag) (rest : List (Str × Tok))
    (d : Dict Str JVal) (e : Bool) :
    consume ((l.map fun p => (p.1, Tok.opt p.2 false none)) ++ rest) d e =
      consume rest (flagged (l.map Prod.snd) d) e := by
  induction l generalizing d with
  | nil => rfl
  | cons p l ih =>
    rw [List.map_cons, List.cons_append, consume_flag (h p List.mem_cons_self)]
    exact ih (fun q hq => h q (List.mem_cons_of_mem _ hq)) _

theorem classify_letters (letters : List Char) (os : List OptSpec) (hlen : os.length = letters.length)
    (h : ∀ (i : Nat) (x : Char), letters[i]? = some x → ∃ q, os[i]? = some q ∧ findOpt ['-', x] = some q)
    (hd : ∀ x ∈ letters, x ≠ '-') (rest : List Str) :
    classifyAll (letters.map (fun x => ['-', x]) ++ rest) = (classifyAll rest).map fun l =>
      ((letters.map (fun x => ['-', x])).zip os).map (fun p => (p.1, Tok.opt p.2 false none)) ++ l := by
  induction letters generalizing os with
  | nil =>
    show classifyAll rest = (classifyAll rest).map fun l => [] ++ l
    cases classifyAll rest <;> rfl
  | cons x letters ih =>
    cases os with
    | nil => cases hlen
    | cons o os =>
      obtain ⟨q, h1, h2⟩ := h 0 x rfl
      injection h1 with h1
      subst h1
      have hx : x ≠ '-' := hd x List.mem_cons_self
      have hcl : classify ['-', x] = some (.opt o false none) := by
        rw [classify_name rfl h2]
        have : isLong ['-', x] = false := by
          unfold isLong
          simp [List.isPrefixOf, Ne.symm hx]
        rw [this]
      rw [List.map_cons, List.cons_append, classifyAll_cons hcl (by intro e; injection e with _ e; injection e with e _; exact hx e),
        ih os (Nat.succ.inj hlen) (fun i y hy => h (i + 1) y hy) fun y hy => hd y (List.mem_cons_of_mem _ hy)]
      cases classifyAll rest <;> rfl

theorem consume_group (os : List OptSpec) (o0 oc : OptSpec) (v s u : Str)
    (hk : ∀ o ∈ o0 :: os, o.kind = .flag) (hc : oc.takes = true ∨ oc.kind = .flag ∧ v = []) (ss : List Str)
    (hss : ss.length = (o0 :: os).length) (w : Str)
    (hch : chain o0 w = some (o0 :: os, oc, attachedOf v)) (rest : List (Str × Tok)) (d : Dict Str JVal) (e : Bool) :
    consume ((s, .opt o0 false (some w)) :: rest) d e =
      consume ((ss.zip (o0 :: os)).map (fun p => (p.1, Tok.opt p.2 false none)) ++
        (u, .opt oc false (attachedOf v)) :: rest) d e := by
  have hz : (ss.zip (o0 :: os)).map Prod.snd = o0 :: os := List.map_snd_zip (by rw [hss])
  rw [consume_flags _ (by
    intro p hp
    exact hk p.2 (List.of_mem_zip hp).2), hz]
  rw [consume, consume]
  have hr : resolve o0 false (some w) = some (o0 :: os, oc, attachedOf v) := by
    unfold resolve
    dsimp only
    rw [if_neg Bool.false_ne_true, hch]
  rw [hr]
  dsimp only
  rw [actAll_flags _ hk]
  generalize flagged (o0 :: os) d = d1
  have nil_ok : actAll [] d1 = .ok d1 := rfl
  unfold attachedOf
  by_cases h0 : v = []
  · rw [if_pos h0]
    have : resolve oc false none = some ([], oc, none) := rfl
    rw [this]
    dsimp only
    rw [nil_ok]
  · rw [if_neg h0]
    have : resolve oc false (some v) = some ([], oc, some v) :=
      resolve_takes (hc.resolve_right fun h => h0 h.2) false v
    rw [this]
    dsimp only
    rw [nil_ok]

end ArgParse

/-- **C159.** Switches can be written together behind one dash, also with an option that takes a value as the last one:
`-BX` is `-B -X`, and `-BXs6` is `-B -X -s6`. -/
theorem switch_group (A B : List Str) (x : Char) (letters : List Char) (c : Char) (v : Str) (hA : ['-', '-'] ∉ A)
    (hl : ∀ y ∈ x :: letters, Spec.SwitchLetter y)
    (hc : (Spec.ValueLetter c ∧ v.head? ≠ some '=') ∨ (Spec.SwitchLetter c ∧ v = [])) :
    parseArgs (A ++ ('-' :: (x :: letters ++ c :: v)) :: B) =
      parseArgs (A ++ ((x :: letters).map (fun y => ['-', y]) ++ ('-' :: c :: v) :: B)) := by
  obtain ⟨o0, f0, k0, x1, x2⟩ := letter_switch (hl x List.mem_cons_self)
  obtain ⟨oc, fc, kc, c1, c2, hv2⟩ : ∃ oc, findOpt ['-', c] = some oc ∧
      (oc.takes = true ∨ oc.kind = .flag ∧ v = []) ∧ c ≠ '=' ∧ c ≠ '-' ∧ v.head? ≠ some '=' := by
    rcases hc with ⟨h, hv⟩ | ⟨h, hv⟩
    · obtain ⟨oc, a1, a2, a3, a4⟩ := letter_value h
      exact ⟨oc, a1, Or.inl a2, a3, a4, hv⟩
    · obtain ⟨oc, a1, a2, a3, a4⟩ := letter_switch h
      exact ⟨oc, a1, Or.inr ⟨a2, hv⟩, a3, a4, by rw [hv]; intro h; cases h⟩
  have t0 : o0.takes = false := by unfold OptSpec.takes; rw [k0]
  obtain ⟨os, e1, e2, e3⟩ := chain_group c v oc fc (kc.imp id And.right) letters o0 t0
    fun y hy => hl y (List.mem_cons_of_mem _ hy)
  have long1 : ∀ (y : Char) (r : Str), y ≠ '-' → isLong ('-' :: y :: r) = false := by
    intro y r hy
    unfold isLong
    simp [List.isPrefixOf, Ne.symm hy]
  have not2 : ∀ (y : Char) (r : Str), y ≠ '-' → '-' :: y :: r ≠ ['-', '-'] := by
    intro y r hy e
    injection e with _ e
    injection e with e _
    exact hy e
  -- the group
  have hg : classify ('-' :: (x :: letters ++ c :: v)) = some (.opt o0 false (some (letters ++ c :: v))) := by
    refine classify_joined (n := ['-', x]) (v := letters ++ c :: v) rfl rfl f0 ?_ (by simp) ?_
    · intro h
      rcases List.mem_cons.1 h with h | h
      · exact absurd h (by decide)
      · exact x1 (List.mem_singleton.1 h).symm
    · cases letters with
      | nil => intro h; injection h with h; exact c1 h
      | cons y letters =>
        intro h
        injection h with h
        obtain ⟨_, _, _, y1, _⟩ := letter_switch (hl y (List.mem_cons_of_mem _ List.mem_cons_self))
        exact y1 h
  -- the last letter
  have hlast : classify ('-' :: c :: v) = some (.opt oc false (attachedOf v)) := by
    unfold attachedOf
    by_cases h0 : v = []
    · subst h0
      rw [if_pos rfl, classify_name rfl fc, long1 c [] c2]
    · rw [if_neg h0]
      refine classify_joined (n := ['-', c]) (v := v) rfl rfl fc ?_ h0 hv2
      intro h
      rcases List.mem_cons.1 h with h | h
      · exact absurd h (by decide)
      · exact c1 (List.mem_singleton.1 h).symm
  have hletters := classify_letters (x :: letters) (o0 :: os) (by rw [List.length_cons, e1, List.length_cons])
    (by
      intro i y hy
      cases i with
      | zero => injection hy with hy; exact ⟨o0, rfl, hy ▸ f0⟩
      | succ i => exact e2 i y hy)
    (fun y hy => (letter_switch (hl y hy)).choose_spec.2.2.2) (('-' :: c :: v) :: B)
  have hk : ∀ o ∈ o0 :: os, o.kind = .flag := by
    intro o ho
    rcases List.mem_cons.1 ho with rfl | ho
    · exact k0
    · obtain ⟨i, hi⟩ := List.getElem?_of_mem ho
      have hlt : i < letters.length := by rw [← e1]; exact (List.getElem?_eq_some_iff.1 hi).1
      obtain ⟨q, q1, q2⟩ := e2 i letters[i] (List.getElem?_eq_getElem hlt)
      obtain ⟨o', p1, p2, -⟩ := letter_switch (hl letters[i] (List.mem_cons_of_mem _ (List.getElem_mem hlt)))
      rw [hi] at q1
      injection q1 with q1
      rw [p1] at q2
      injection q2 with q2
      rw [q1, ← q2]
      exact p2
  have key : ∀ tb : List (Str × Tok), ∀ d e, consume (('-' :: (x :: letters ++ c :: v), Tok.opt o0 false (some (letters ++ c :: v))) :: tb) d e =
      consume ((((x :: letters).map fun y => ['-', y]).zip (o0 :: os)).map (fun p => (p.1, Tok.opt p.2 false none)) ++
        ('-' :: c :: v, .opt oc false (attachedOf v)) :: tb) d e := by
    intro tb d e
    exact consume_group os o0 oc v _ _ hk kc _ (by rw [List.length_map, List.length_cons, List.length_cons, e1]) _ e3 tb d e
  unfold parseArgs
  rw [if_neg (by simp), if_neg (by simp), classifyAll_append A _ hA, classifyAll_append A _ hA, hletters,
    classifyAll_cons hg (not2 x _ x2), classifyAll_cons hlast (not2 c _ c2)]
  cases classifyAll A with
  | none => rfl
  | some ta =>
    cases classifyAll B with
    | none => rfl
    | some tb =>
      dsimp only [Option.map]
      rw [consume_prefix _ _ (key tb) (by intro s rest h; injection h with h _; injection h with _ h; cases h)
        (by
          intro s rest h
          injection h with h _
          injection h with _ h
          cases h) ta.length ta (le_refl _)]

namespace ArgParse

theorem filterMap_two {α β : Type} {l : List α} {f : α → Option β} {a b : α} (ha : a ∈ l) (hb : b ∈ l) (hab : a ≠ b)
    (fa : f a ≠ none) (fb : f b ≠ none) : ∃ p q r, l.filterMap f = p :: q :: r := by
  have one : ∀ (l : List α) (a : α), a ∈ l → f a ≠ none → l.filterMap f ≠ [] := by
    intro l a ha fa h
    exact fa (List.filterMap_eq_nil_iff.1 h a ha)
  induction l with
  | nil => cases ha
  | cons c l ih =>
    have two : ∀ z : α, z ∈ l → f z ≠ none → f c ≠ none → ∃ p q r, (c :: l).filterMap f = p :: q :: r := by
      intro z hz fz fc
      cases hc : f c with
      | none => exact absurd hc fc
      | some p =>
        rw [List.filterMap_cons_some hc]
        cases hl : l.filterMap f with
        | nil => exact absurd hl (one l z hz fz)
        | cons q r => exact ⟨p, q, r, rfl⟩
    rcases List.mem_cons.1 ha with ea | ha'
    · rcases List.mem_cons.1 hb with eb | hb'
      · exact absurd (ea.trans eb.symm) hab
      · exact two b hb' fb (ea ▸ fa)
    · rcases List.mem_cons.1 hb with eb | hb'
      · exact two a ha' fa (eb ▸ fb)
      · obtain ⟨p, q, r, h⟩ := ih ha' hb'
        cases hc : f c with
        | none => exact ⟨p, q, r, by rw [List.filterMap_cons_none hc, h]⟩
        | some x => exact ⟨x, p, q :: r, by rw [List.filterMap_cons_some hc, h]⟩

theorem long_known : ∀ l ∈ Spec.longNames, ∃ p ∈ names, p.1 = l.toList ∧ '=' ∉ p.1 := by
  intro l hl
  have key : ∀ l ∈ Spec.longNames, ∃ p ∈ names, p.1 = l.toList := by decide +kernel
  obtain ⟨p, hp, h⟩ := key l hl
  exact ⟨p, hp, h, (option_chars p hp).1⟩

theorem classify_ambiguous {n : Str} (h : Spec.Ambiguous n) : (classify n = none ∧ n ≠ ['-', '-']) ∧
    (n.length ≠ 2 → ∀ v, classify (n ++ '=' :: v) = none ∧ n ++ '=' :: v ≠ ['-', '-']) := by
  rcases h with rfl | ⟨⟨t, ht⟩, hlen, hno, l, hl, m, hm, hlm, hpl, hpm⟩
  · exact ⟨by decide +kernel, fun h => absurd rfl h⟩
  · obtain ⟨p, hp, hpn, hpe⟩ := long_known l hl
    obtain ⟨q, hq, hqn, hqe⟩ := long_known m hm
    subst ht
    have hn : '=' ∉ ['-', '-'] ++ t := by
      intro h
      rw [← hpn] at hpl
      exact hpe (hpl.subset h)
    have hpq : p ≠ q := by
      intro e
      rw [e, hqn] at hpn
      exact hlm (String.toList_inj.1 hpn).symm
    have hnf : findOpt (['-', '-'] ++ t) = none := by
      refine find_none fun r hr he => ?_
      obtain ⟨z, hz, hz2⟩ := long_listed r hr (by rw [he]; rfl)
      exact hno z hz (by rw [← hz2, he])
    have hcand : ∀ s : Str, ∀ w, splitEq s = (['-', '-'] ++ t, w) → isLong s = true →
        ∃ a b r, candidates s = a :: b :: r := by
      intro s w hs hl'
      unfold candidates
      rw [if_pos hl', hs]
      refine filterMap_two hp hq hpq ?_ ?_
      · rw [hpn, if_pos (List.isPrefixOf_iff_prefix.2 hpl)]; exact Option.some_ne_none _
      · rw [hqn, if_pos (List.isPrefixOf_iff_prefix.2 hpm)]; exact Option.some_ne_none _
    have ht : t ≠ [] := by rintro rfl; exact absurd hlen (by decide)
    refine ⟨⟨?_, ?_⟩, fun _ v => ⟨?_, ?_⟩⟩
    · show classify ('-' :: '-' :: t) = none
      have hs : splitEq ('-' :: '-' :: t) = ('-' :: '-' :: t, none) := splitEq_none _ hn
      obtain ⟨a, b, r, hab⟩ := hcand _ none hs rfl
      change findOpt ('-' :: '-' :: t) = none at hnf
      rw [classify_cons, hnf]
      dsimp only
      rw [if_neg (by intro hc; cases hc)]
      have h2 : withEq ('-' :: '-' :: t) = none := by
        unfold withEq
        rw [hs]
      rw [h2, hab]
    · intro e
      apply ht
      simpa using e
    · show classify ('-' :: ('-' :: t ++ '=' :: v)) = none
      have hs : splitEq ('-' :: ('-' :: t ++ '=' :: v)) = (['-', '-'] ++ t, some v) := splitEq_equal (['-', '-'] ++ t) v hn
      obtain ⟨a, b, r, hab⟩ := hcand _ (some v) hs rfl
      have h1 : findOpt ('-' :: ('-' :: t ++ '=' :: v)) = none := by
        refine find_none fun p hp he => ?_
        have := (option_chars p hp).1
        rw [he] at this
        exact this (by simp)
      rw [classify_cons, h1]
      dsimp only
      rw [if_neg (by intro hc; cases hc)]
      have h2 : withEq ('-' :: ('-' :: t ++ '=' :: v)) = none := by
        unfold withEq
        rw [hs]
        dsimp only
        rw [hnf]
        rfl
      rw [h2, hab]
    · intro e
      have := congrArg List.length e
      simp at this

end ArgParse

/-- **C159.** A name that can be completed in more than one way — the beginning of two long names, or `-v` — is refused
with error 10000, whatever else is on the command line (also `-h`). -/
theorem ambiguous_refused (A B : List Str) (n u : Str) (hA : ['-', '-'] ∉ A) (h : Spec.Ambiguous n)
    (hu : u = n ∨ (2 < n.length ∧ ∃ v, u = n ++ '=' :: v)) :
    parseArgs (A ++ u :: B) = .error (.app 10000) := by
  obtain ⟨⟨h1, h2⟩, h3⟩ := classify_ambiguous h
  have hc : classify u = none ∧ u ≠ ['-', '-'] := by
    rcases hu with rfl | ⟨hlen, v, rfl⟩
    · exact ⟨h1, h2⟩
    · exact h3 (by omega) v
  have : classifyAll (A ++ u :: B) = none := by
    rw [classifyAll_append A _ hA]
    have : classifyAll (u :: B) = none := by rw [classifyAll, if_neg hc.2, hc.1]
    rw [this]
    cases classifyAll A <;> rfl
  unfold parseArgs
  rw [if_neg (by simp), this]

/-! ## Concrete cases -/

/-- `--sta` stands for `--start`, `--create` for `--createIntertable`. -/
example : Spec.Sets (.shortened "--sta".toList "6".toList) "start".toList (.int 6) ∧
    Spec.Sets (.shortenedEqual "--sta".toList "-6".toList) "start".toList (.int (-6)) ∧
    Spec.Sets (.shortenedSwitch "--create".toList) "createIntertable".toList (.bool true) := by
  have hs : Spec.Shortens "--sta".toList "--start" := by
    refine ⟨by decide, by decide, by decide, by decide, ?_⟩
    decide
  have hc : Spec.Shortens "--create".toList "--createIntertable" := by
    refine ⟨by decide, by decide, by decide, by decide, ?_⟩
    decide
  refine ⟨⟨("-s", "--start", .number), by simp [Spec.valued], hs, rfl, ⟨6, ⟨[6], by decide, by decide, Or.inl ⟨Or.inl rfl, by decide⟩⟩, rfl⟩,
    Or.inl (by decide)⟩, ⟨("-s", "--start", .number), by simp [Spec.valued], hs, rfl,
      ⟨-6, ⟨[6], by decide, by decide, Or.inr ⟨rfl, by decide⟩⟩, rfl⟩⟩,
    ⟨("-B", "--createIntertable"), by decide, hc, rfl, rfl⟩⟩

/-- `-BXs6` is `-B -X -s6`. -/
example : parseArgs (["-c", "a", "-BXs6", "-e", "12"].map String.toList) =
    parseArgs (["-c", "a", "-B", "-X", "-s6", "-e", "12"].map String.toList) :=
  switch_group ["-c".toList, "a".toList] ["-e".toList, "12".toList] 'B' ['X'] 's' "6".toList (by decide)
    (by
      intro y hy
      rcases List.mem_cons.1 hy with rfl | hy
      · exact ⟨("-B", "--createIntertable"), by decide, rfl⟩
      · rw [List.mem_singleton.1 hy]
        exact ⟨("-X", "--interpolationParallel"), by decide, rfl⟩)
    (Or.inl ⟨⟨("-s", "--start", .number), by simp [Spec.valued], rfl⟩, by decide⟩)

/-- `--data` is the beginning of `--dataTime` and of `--dataDate`. -/
example : Spec.Ambiguous "--data".toList :=
  Or.inr ⟨by decide, by decide, by decide, "--dataTime", by decide, "--dataDate", by decide, by decide, by decide, by decide⟩

end PyG2P
