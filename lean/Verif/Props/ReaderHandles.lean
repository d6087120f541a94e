import Verif.Props.ReaderInfo

/-! # GRIB handles and repeated scans: C30, C31 -/

namespace PyG2P
open PyG2P.Reader
variable {α : Type}

/-! ## C30 -/

namespace Spec
/-- No auxiliary handles are requested after the reader was closed. -/
def NoAuxAfterClose (ops : List Op) : Prop := ∀ a b, ops = a ++ .close :: b → Op.aux ∉ b

/-- The number of selections in a history. -/
def selections (ops : List Op) : Nat :=
  (ops.filter fun o => match o with | .select _ => true | _ => false).length
end Spec

/-- State invariant. -/
structure Inv (r : Reader) : Prop where
  ok : Ok r.w
  selND : ∀ hs, r.selected = some hs → hs.Nodup
  selLive : ∀ hs, r.selected = some hs → ∀ h ∈ hs, h ∈ r.w.live
  mainLive : r.src ≠ .closed → ∀ h, r.main = some h → h ∈ r.w.live
  extLive : r.src ≠ .closed → ∀ h, r.ext = some h → h ∈ r.w.live

theorem selLoop_ext (nj0 sg2 : Int) (ch : Str) (ms : List (Nat × GMsg α)) (st : SelSt α) (h : Nat)
    (he : (ms.foldl (selStep nj0 sg2 ch) st).ext = some h) : st.ext = some h ∨ h ∈ ms.map (·.1) := by
  induction ms generalizing st with
  | nil => exact Or.inl he
  | cons p ms ih =>
    rw [List.foldl_cons] at he
    rcases ih _ he with h1 | h1
    · have : (selStep nj0 sg2 ch st p).ext = if p.2.nj ≠ nj0 then some p.1 else st.ext := by
        unfold selStep
        dsimp only
        split_ifs <;> rfl
      rw [this] at h1
      split_ifs at h1 with hc
      · cases h1; exact Or.inr (by simp)
      · exact Or.inl h1
    · exact Or.inr (by simp [h1])

theorem group_ext (sg sg2 : Int) (ch : Str) (ext : Option Nat) (ms : List (Nat × GMsg α)) (h : Nat)
    (he : (group sg sg2 ch ext ms).2 = some h) : ext = some h ∨ h ∈ ms.map (·.1) := by
  cases ms with
  | nil => exact Or.inl he
  | cons p ms => exact selLoop_ext p.2.nj sg2 ch (p :: ms) ⟨sg, false, ext, [], []⟩ h he

theorem msgsOf_fst (file : List (GMsg α)) (g : List (Nat × Nat)) (h : Nat)
    (hm : h ∈ (msgsOf file g).map (·.1)) : h ∈ g.map (·.1) := by
  obtain ⟨p, hp, rfl⟩ := List.mem_map.1 hm
  obtain ⟨q, hq, he⟩ := List.mem_filterMap.1 hp
  cases hf : file[q.2]? with
  | none => rw [hf] at he; cases he
  | some m =>
    rw [hf] at he
    cases he
    exact List.mem_map_of_mem hq

/-- Live handles before and after an operation that keeps none of its own. -/
theorem info_spec (file : List (GMsg α)) (r : Reader) (kw : Kwargs) (hi : Inv r) :
    Inv (gribInfo file r kw).2 ∧ (gribInfo file r kw).2.selected = r.selected ∧
      (∀ h, h ∈ (gribInfo file r kw).2.w.live ↔ h ∈ r.w.live) ∧
      (r.src = .closed ↔ (gribInfo file r kw).2.src = .closed) := by
  obtain ⟨res, r1, hg, h1, h2, h3, h4, h5, h6, h7⟩ := getGids_world file r kw hi.ok
  unfold gribInfo
  rw [hg]
  have keep : ∀ r' : Reader, Ok r'.w → r'.selected = r.selected → r'.main = r.main → r'.ext = r.ext →
      (r.src = .closed ↔ r'.src = .closed) → (∀ h, h ∈ r'.w.live ↔ h ∈ r.w.live) → Inv r' := by
    intro r' a b c d e f
    refine ⟨a, ?_, ?_, ?_, ?_⟩
    · intro hs hh; rw [b] at hh; exact hi.selND hs hh
    · intro hs hh h hm; rw [b] at hh; exact (f h).2 (hi.selLive hs hh h hm)
    · intro hc h hm; rw [c] at hm; exact (f h).2 (hi.mainLive (fun x => hc (e.1 x)) h hm)
    · intro hc h hm; rw [d] at hm; exact (f h).2 (hi.extLive (fun x => hc (e.1 x)) h hm)
  cases res with
  | error e =>
    have hl : ∀ h, h ∈ r1.w.live ↔ h ∈ r.w.live := fun h => (h6 e rfl).mem_iff
    exact ⟨keep r1 h1 h2 h3 h4 h5 hl, h2, hl, h5⟩
  | ok g =>
    obtain ⟨k1, k2, k3, k4, k5⟩ := h7 g rfl
    dsimp only
    by_cases hl : g.length > 0
    · rw [if_pos hl]
      have hlive : ∀ p ∈ g, p.1 ∈ r1.w.live := fun p hp =>
        k3.mem_iff.2 (List.mem_append_left _ (List.mem_map_of_mem hp))
      rw [useAll_eq _ _ hlive]
      obtain ⟨i, hf⟩ : ∃ i, findStartEnd (stepsOf file g) = .ok i := by
        cases g with
        | nil => simp at hl
        | cons p g =>
          have hp := k5 p (by simp)
          unfold stepsOf
          rw [List.filterMap_cons, List.getElem?_eq_getElem hp]
          exact ⟨_, rfl⟩
      rw [hf]
      dsimp only
      have hsub : ∀ h ∈ g.map (·.1), h ∈ r1.w.live := fun h hm => k3.mem_iff.2 (List.mem_append_left _ hm)
      obtain ⟨o1, o2, o3⟩ := releaseAll_ok r1.w (g.map (·.1)) h1 k1 hsub
      have hlv : ∀ h, h ∈ (releaseAll r1.w (g.map (·.1))).live ↔ h ∈ r.w.live := by
        intro h
        rw [o2, k3.mem_iff, List.mem_append]
        constructor
        · rintro ⟨a | a, b⟩
          · exact absurd a b
          · exact a
        · intro a; exact ⟨Or.inr a, fun hm => k2 h hm a⟩
      refine ⟨?_, h2, hlv, h5⟩
      exact keep _ o1 h2 h3 h4 h5 hlv
    · rw [if_neg hl]
      have : g = [] := List.length_eq_zero_iff.1 (by omega)
      subst this
      have hlv : ∀ h, h ∈ r1.w.live ↔ h ∈ r.w.live := fun h => by
        rw [k3.mem_iff]; simp
      exact ⟨keep r1 h1 h2 h3 h4 h5 hlv, h2, hlv, h5⟩

theorem select_spec (file : List (GMsg α)) (r : Reader) (kw : Kwargs) (hi : Inv r) :
    Inv (Reader.select file r kw).2 ∧
      (r.src = .closed ↔ (Reader.select file r kw).2.src = .closed) ∧
      ∀ h, h ∈ (Reader.select file r kw).2.w.live →
        h ∈ r.w.live ∨ ∃ hs, (Reader.select file r kw).2.selected = some hs ∧ h ∈ hs := by
  obtain ⟨res, r1, hg, h1, h2, h3, h4, h5, h6, h7⟩ := getGids_world file r kw hi.ok
  unfold Reader.select
  rw [hg]
  cases res with
  | error e =>
    have hl : ∀ h, h ∈ r1.w.live ↔ h ∈ r.w.live := fun h => (h6 e rfl).mem_iff
    refine ⟨⟨h1, ?_, ?_, ?_, ?_⟩, h5, fun h hm => Or.inl ((hl h).1 hm)⟩
    · intro hs hh; dsimp only at hh; rw [h2] at hh; exact hi.selND hs hh
    · intro hs hh h hm; dsimp only at hh; rw [h2] at hh; exact (hl h).2 (hi.selLive hs hh h hm)
    · intro hc h hm; dsimp only at hm; rw [h3] at hm; exact (hl h).2 (hi.mainLive (fun x => hc (h5.1 x)) h hm)
    · intro hc h hm; dsimp only at hm; rw [h4] at hm; exact (hl h).2 (hi.extLive (fun x => hc (h5.1 x)) h hm)
  | ok g =>
    obtain ⟨k1, k2, k3, k4, k5⟩ := h7 g rfl
    dsimp only
    have hsub : ∀ h ∈ g.map (·.1), h ∈ r1.w.live := fun h hm => k3.mem_iff.2 (List.mem_append_left _ hm)
    have hold : ∀ h ∈ r.w.live, h ∈ r1.w.live := fun h hm => k3.mem_iff.2 (List.mem_append_right _ hm)
    have hnew : ∀ h ∈ r1.w.live, h ∈ r.w.live ∨ ∃ hs, some (g.map (·.1)) = some hs ∧ h ∈ hs := by
      intro h hm
      rcases List.mem_append.1 (k3.mem_iff.1 hm) with a | a
      · exact Or.inr ⟨_, rfl, a⟩
      · exact Or.inl a
    by_cases hl : g.length > 0
    · rw [if_pos hl]
      have hlive : ∀ p ∈ g, p.1 ∈ r1.w.live := fun p hp => hsub _ (List.mem_map_of_mem hp)
      rw [useAll_eq _ _ hlive]
      dsimp only
      refine ⟨⟨h1, ?_, ?_, ?_, ?_⟩, h5, hnew⟩
      · intro hs hh; cases hh; exact k1
      · intro hs hh h hm; cases hh; exact hsub h hm
      · intro hc h hm; exact hsub h (List.mem_of_mem_head? hm)
      · intro hc h hm
        rcases group_ext _ _ _ _ _ _ hm with a | a
        · rw [h4] at a; exact hold h (hi.extLive (fun x => hc (h5.1 x)) h a)
        · exact hsub h (msgsOf_fst file g h a)
    · rw [if_neg hl]
      have : g = [] := List.length_eq_zero_iff.1 (by omega)
      subst this
      refine ⟨⟨h1, ?_, ?_, ?_, ?_⟩, h5, hnew⟩
      · intro hs hh; cases hh; exact k1
      · intro hs hh h hm; cases hh; cases hm
      · intro hc h hm; dsimp only at hm; rw [h3] at hm; exact hold h (hi.mainLive (fun x => hc (h5.1 x)) h hm)
      · intro hc h hm; dsimp only at hm; rw [h4] at hm; exact hold h (hi.extLive (fun x => hc (h5.1 x)) h hm)

theorem close_spec (r : Reader) (hi : Inv r) :
    Inv (close r).2 ∧ (r.selected ≠ none → (close r).2.src = .closed) ∧ (close r).2.selected = none ∧
      (∀ h, h ∈ (close r).2.w.live ↔ h ∈ r.w.live ∧ ∀ hs, r.selected = some hs → h ∉ hs) := by
  unfold close
  cases hs : r.selected with
  | none => exact ⟨hi, fun h => absurd rfl h, hs, fun h => by simp⟩
  | some l =>
    obtain ⟨o1, o2, -⟩ := releaseAll_ok r.w l hi.ok (hi.selND l hs) (hi.selLive l hs)
    refine ⟨⟨o1, ?_, ?_, ?_, ?_⟩, fun _ => rfl, rfl, ?_⟩
    · intro x hx; cases hx
    · intro x hx; cases hx
    · intro hc; exact absurd rfl hc
    · intro hc; exact absurd rfl hc
    · intro h; dsimp only; rw [o2]
      constructor
      · rintro ⟨a, b⟩; exact ⟨a, fun hs' he => by cases he; exact b⟩
      · rintro ⟨a, b⟩; exact ⟨a, b l rfl⟩

theorem aux_same (r : Reader) (hi : Inv r) (hc : r.src ≠ .closed) : (Reader.aux r).2 = r := by
  unfold Reader.aux
  cases hm : r.main with
  | none => rfl
  | some h =>
    dsimp only
    have h1 : r.w.use h = r.w := by unfold World.use; rw [if_pos (hi.mainLive hc h hm)]
    rw [h1]
    cases he : r.ext with
    | none => dsimp only; cases r; cases hm; cases he; rfl
    | some h2 =>
      dsimp only
      have : r.w.use h2 = r.w := by unfold World.use; rw [if_pos (hi.extLive hc h2 he)]
      rw [this]; cases r; cases hm; cases he; rfl

/-- What holds after a history. -/
structure After (r0 : Reader) (ops : List Op) (r : Reader) : Prop where
  inv : Inv r
  /-- the reader is closed only after a `close` -/
  closed : r.src = .closed → r0.src = .closed ∨ ∃ a b, ops = a ++ .close :: b
  selClosed : r.selected = none → r.src = .closed
  /-- with at most one selection, all live handles are selected ones -/
  few : Spec.selections ops ≤ 1 → (∀ h ∈ r.w.live, ∃ hs, r.selected = some hs ∧ h ∈ hs) ∧
    (Spec.selections ops = 0 → r.w.live = [])

theorem selections_append (a b : List Op) :
    Spec.selections (a ++ b) = Spec.selections a + Spec.selections b := by
  simp [Spec.selections, List.filter_append]

theorem run_inv (file : List (GMsg α)) (indexable withPert : Bool) (ops : List Op)
    (hops : Spec.NoAuxAfterClose ops) :
    After (init indexable withPert ⟨0, [], [], false⟩) ops
      (run file (init indexable withPert ⟨0, [], [], false⟩) ops) := by
  set r0 := init indexable withPert ⟨0, [], [], false⟩ with hr0
  have hr0c : r0.src ≠ .closed := by rw [hr0]; cases indexable <;> simp [init]
  induction ops using List.reverseRecOn with
  | nil =>
    refine ⟨⟨ok_empty, ?_, ?_, ?_, ?_⟩, fun h => Or.inl h, ?_, fun _ => ⟨?_, fun _ => rfl⟩⟩
    · intro hs h; cases h; simp
    · intro hs h; cases h; simp
    · intro _ h hm; cases hm
    · intro _ h hm; cases hm
    · intro h; cases h
    · intro h hm; cases hm
  | append_singleton ops o ih =>
    have hpre : Spec.NoAuxAfterClose ops := by
      intro a b h hm
      exact hops a (b ++ [o]) (by rw [h]; simp) (List.mem_append_left _ hm)
    have I := ih hpre
    have hrun : run file r0 (ops ++ [o]) = step file (run file r0 ops) o := by
      unfold run; rw [List.foldl_append]; rfl
    rw [hrun]
    set r := run file r0 ops with hr
    have hclosed : r.src = .closed → ∃ a b, ops = a ++ .close :: b := by
      intro h; rcases I.closed h with h | h
      · exact absurd h hr0c
      · exact h
    have hcl' : r.src = .closed → r0.src = .closed ∨ ∃ a b, ops ++ [o] = a ++ .close :: b := by
      intro h
      obtain ⟨a, b, he⟩ := hclosed h
      exact Or.inr ⟨a, b ++ [o], by rw [he]; simp⟩
    cases o with
    | info kw =>
      obtain ⟨h1, h2, h3, h4⟩ := info_spec file r kw I.inv
      refine ⟨h1, fun h => hcl' (h4.2 h), ?_, ?_⟩
      · intro h
        change (gribInfo file r kw).2.selected = none at h
        rw [h2] at h
        exact h4.1 (I.selClosed h)
      · intro hs
        have e : Spec.selections (ops ++ [.info kw]) = Spec.selections ops := by
          rw [selections_append]; rfl
        rw [e] at hs ⊢
        obtain ⟨f1, f2⟩ := I.few hs
        constructor
        · intro h hm
          change ∃ hs, (gribInfo file r kw).2.selected = some hs ∧ h ∈ hs
          rw [h2]
          exact f1 h ((h3 h).1 hm)
        · intro h0
          have hl0 := f2 h0
          refine List.eq_nil_iff_forall_not_mem.2 fun h hm => ?_
          have := (h3 h).1 hm
          rw [hl0] at this; cases this
    | select kw =>
      obtain ⟨h1, h2, h3⟩ := select_spec file r kw I.inv
      refine ⟨h1, fun h => hcl' (h2.2 h), ?_, ?_⟩
      · intro h
        change (Reader.select file r kw).2.selected = none at h
        refine h2.1 (I.selClosed ?_)
        -- a selection that fails before choosing handles leaves `selected` as it was
        obtain ⟨res, r1, hg, -, k2, -, -, -, -, -⟩ := getGids_world file r kw I.inv.ok
        unfold Reader.select at h
        rw [hg] at h
        cases res with
        | error e => exact k2 ▸ h
        | ok g =>
          dsimp only at h
          split_ifs at h
      · intro hs
        have e : Spec.selections (ops ++ [.select kw]) = Spec.selections ops + 1 := by
          rw [selections_append]; rfl
        rw [e] at hs ⊢
        obtain ⟨f1, f2⟩ := I.few (by omega)
        have hl0 := f2 (by omega)
        refine ⟨?_, fun h => by omega⟩
        intro h hm
        rcases h3 h hm with h4 | h4
        · rw [hl0] at h4; cases h4
        · exact h4
    | aux =>
      have hnc : r.src ≠ .closed := by
        intro hc
        obtain ⟨a, b, he⟩ := hclosed hc
        exact hops a (b ++ [.aux]) (by rw [he]; simp) (by simp)
      have hsame : step file r .aux = r := aux_same r I.inv hnc
      rw [hsame]
      have e : Spec.selections (ops ++ [.aux]) = Spec.selections ops := by
        rw [selections_append]; rfl
      exact ⟨I.inv, hcl', I.selClosed, fun hs => by rw [e] at hs ⊢; exact I.few hs⟩
    | close =>
      obtain ⟨h1, h2, h3, h4⟩ := close_spec r I.inv
      refine ⟨h1, fun _ => Or.inr ⟨ops, [], rfl⟩, ?_, ?_⟩
      · intro _
        by_cases hs : r.selected = none
        · have : (close r).2 = r := by unfold close; rw [hs]
          change (close r).2.src = _
          rw [this]; exact I.selClosed hs
        · exact h2 hs
      · intro hs
        have e : Spec.selections (ops ++ [.close]) = Spec.selections ops := by
          rw [selections_append]; rfl
        rw [e] at hs ⊢
        obtain ⟨f1, f2⟩ := I.few hs
        have hl0 : (close r).2.w.live = [] := by
          refine List.eq_nil_iff_forall_not_mem.2 fun h hm => ?_
          obtain ⟨a, b⟩ := (h4 h).1 hm
          obtain ⟨hs', hse, hm'⟩ := f1 h a
          exact b hs' hse hm'
        refine ⟨?_, fun _ => hl0⟩
        intro h hm
        change h ∈ (close r).2.w.live at hm
        rw [hl0] at hm; cases hm

/-- C30: in any history in which no auxiliary handles are requested after `close`, no handle is released
twice or used after its release. -/
theorem C30_no_misuse_partial (file : List (GMsg α)) (indexable withPert : Bool) (ops : List Op)
    (hops : Spec.NoAuxAfterClose ops) :
    let w := (run file (init indexable withPert ⟨0, [], [], false⟩) ops).w
    w.bad = false ∧ w.rel.Nodup ∧ ∀ h, h < w.next ↔ (h ∈ w.live ∨ h ∈ w.rel) := by
  intro w
  have h := (run_inv file indexable withPert ops hops).inv.ok
  exact ⟨h.notBad, h.relND, fun x => ⟨h.all x, fun hx => hx.elim (h.liveLt x) (h.relLt x)⟩⟩

/-- C30: with at most one selection, closing at the end leaves no handle unreleased: every handle obtained
was released exactly once. -/
theorem C30_all_released_partial (file : List (GMsg α)) (indexable withPert : Bool) (ops : List Op)
    (hops : Spec.NoAuxAfterClose ops) (hone : Spec.selections ops ≤ 1) :
    let w := (run file (init indexable withPert ⟨0, [], [], false⟩) (ops ++ [.close])).w
    w.bad = false ∧ w.live = [] ∧ w.rel.Nodup ∧ ∀ h, h < w.next ↔ h ∈ w.rel := by
  intro w
  have hops' : Spec.NoAuxAfterClose (ops ++ [.close]) := by
    intro a b h hm
    rcases List.eq_nil_or_concat b with rfl | ⟨b', z, rfl⟩
    · cases hm
    · have h' : ops ++ [Op.close] = (a ++ .close :: b') ++ [z] := by rw [h]; simp
      obtain ⟨h1, h2⟩ := List.append_inj' h' rfl
      have hz : z = Op.close := by simpa using h2.symm
      subst hz
      rw [List.concat_eq_append] at hm
      rcases List.mem_append.1 hm with hm | hm
      · exact hops a b' h1 hm
      · rw [List.mem_singleton] at hm; cases hm
  have A := run_inv file indexable withPert (ops ++ [.close]) hops'
  have B := run_inv file indexable withPert ops hops
  have h := A.inv.ok
  have hl : w.live = [] := by
    have e : run file (init indexable withPert ⟨0, [], [], false⟩) (ops ++ [.close]) =
        (close (run file (init indexable withPert ⟨0, [], [], false⟩) ops)).2 := by
      unfold run; rw [List.foldl_append]; rfl
    obtain ⟨-, -, -, h4⟩ := close_spec _ B.inv
    refine List.eq_nil_iff_forall_not_mem.2 fun x hm => ?_
    change x ∈ (run file (init indexable withPert ⟨0, [], [], false⟩) (ops ++ [.close])).w.live at hm
    rw [e] at hm
    obtain ⟨a, b⟩ := (h4 x).1 hm
    obtain ⟨hs', hse, hm'⟩ := (B.few hone).1 x a
    exact b hs' hse hm'
  refine ⟨h.notBad, hl, h.relND, fun x => ⟨fun hx => ?_, h.relLt x⟩⟩
  rcases h.all x hx with h' | h'
  · exact absurd (show x ∈ w.live from h') (by rw [hl]; simp)
  · exact h'

def exKw2 : Kwargs := [("shortName".toList, .eq (.str "2t".toList))]

example : Spec.NoAuxAfterClose [.info exKw2, .select exKw2, .aux] ∧
    (run exFile (init true false ⟨0, [], [], false⟩) [.info exKw2, .select exKw2, .aux]).w.live = [5, 4, 3] ∧
    (run exFile (init true false ⟨0, [], [], false⟩) [.info exKw2, .select exKw2, .aux, .close]).w.rel.length = 6 := by
  refine ⟨?_, by decide +kernel, by decide +kernel⟩
  intro a b h hm
  have : Op.close ∈ [Op.info exKw2, .select exKw2, .aux] := by rw [h]; simp
  simp at this

/-- C30 is violated by a second selection: the handles of the first one are never released. -/
theorem C30_leak : (run exFile (init true false ⟨0, [], [], false⟩)
    [.select exKw2, .select exKw2, .close]).w.live = [2, 1, 0] := by decide +kernel

/-- C30 is violated when the auxiliary handles are requested after `close`: a released handle is read. -/
theorem C30_use_after_release : (run exFile (init true false ⟨0, [], [], false⟩)
    [.select exKw2, .close, .aux]).w.bad = true := by decide +kernel

/-- C30: what the mark of misuse means: releasing or reading a handle that is not live sets it, a live one never does, and
nothing ever clears it. -/
theorem C30_mark (w : World) (h : Nat) :
    ((w.release h).bad = true ↔ w.bad = true ∨ h ∉ w.live) ∧ ((w.use h).bad = true ↔ w.bad = true ∨ h ∉ w.live) ∧
    (w.alloc.bad = w.bad) := by
  unfold World.release World.use World.alloc
  by_cases hm : h ∈ w.live
  · rw [if_pos hm, if_pos hm]
    exact ⟨⟨Or.inl, fun h' => h'.elim id fun hn => absurd hm hn⟩, ⟨Or.inl, fun h' => h'.elim id fun hn => absurd hm hn⟩, rfl⟩
  · rw [if_neg hm, if_neg hm]
    exact ⟨⟨fun _ => Or.inr hm, fun _ => rfl⟩, ⟨fun _ => Or.inr hm, fun _ => rfl⟩, rfl⟩

/-- Closing twice raises an error. -/
theorem C30_close_twice (r : Reader) : (close (close r).2).1 = .error .typeError := by
  unfold close
  cases h : r.selected <;> simp [h]

/-! ## C31 -/

theorem scan_pos_index (file : List (GMsg α)) (r r' : Reader) (kw : Kwargs) (b : Bool)
    (h : r.src = .index b) (h' : r'.src = .index b) :
    ((scan file r kw).1.map (·.map (·.2))) = ((scan file r' kw).1.map (·.map (·.2))) ∧
      (scan file r kw).2.src = .index b ∧ (scan file r' kw).2.src = .index b := by
  unfold scan
  cases hn : Dict.get? kw "shortName".toList with
  | none => exact ⟨rfl, h, h'⟩
  | some c =>
    refine ⟨?_, ?_, ?_⟩
    · show Except.map _ (Except.ok _) = Except.map _ (Except.ok _)
      unfold Except.map
      dsimp only
      rw [scanLoop_pos, scanLoop_pos, h, h']
    · dsimp only; rw [h]; rfl
    · dsimp only; rw [h']; rfl

theorem getGids_pos_index (file : List (GMsg α)) (r r' : Reader) (kw : Kwargs) (b : Bool)
    (h : r.src = .index b) (h' : r'.src = .index b) :
    ((getGids file r kw).1.map (·.map (·.2))) = ((getGids file r' kw).1.map (·.map (·.2))) ∧
      (getGids file r kw).2.src = .index b := by
  obtain ⟨h1, h2, h3⟩ := scan_pos_index file r r' kw b h h'
  unfold getGids
  cases ha : scan file r kw with
  | mk a ra =>
    cases hb : scan file r' kw with
    | mk a' ra' =>
      rw [ha, hb] at h1
      rw [ha] at h2
      rw [hb] at h3
      cases a with
      | error e =>
        cases a' with
        | error e' => exact ⟨h1, h2⟩
        | ok g' => cases h1
      | ok g =>
        cases a' with
        | error e' => cases h1
        | ok g' =>
          dsimp only
          have hg : g.map (·.2) = g'.map (·.2) := by
            have : (Except.ok (g.map (·.2)) : Py (List Nat)) = Except.ok (g'.map (·.2)) := h1
            exact Except.ok.inj this
          have hlen : g.length = g'.length := by
            have := congrArg List.length hg; simpa using this
          by_cases hc : g.length = 0 ∧ excludesZero kw = true
          · rw [if_pos hc, if_pos ⟨hlen ▸ hc.1, hc.2⟩]
            obtain ⟨k1, k2, -⟩ := scan_pos_index file ra ra' (relaxed kw) b h2 h3
            exact ⟨k1, k2⟩
          · rw [if_neg hc, if_neg (fun hc' => hc ⟨hlen ▸ hc'.1, hc'.2⟩)]
            exact ⟨h1, h2⟩

theorem stepsOf_pos (file : List (GMsg α)) (g g' : List (Nat × Nat)) (h : g.map (·.2) = g'.map (·.2)) :
    stepsOf file g = stepsOf file g' := by
  have : ∀ g : List (Nat × Nat), stepsOf file g = (g.map (·.2)).filterMap
      (fun i => (file[i]?).map fun m => (m.startStep, m.endStep)) := by
    intro g; unfold stepsOf; rw [List.filterMap_map]; rfl
  rw [this g, this g', h]

theorem msgsOf_pos (file : List (GMsg α)) (g g' : List (Nat × Nat)) (h : g.map (·.2) = g'.map (·.2)) :
    (msgsOf file g).map (·.2) = (msgsOf file g').map (·.2) := by
  have : ∀ g : List (Nat × Nat), (msgsOf file g).map (·.2) = (g.map (·.2)).filterMap (fun i => file[i]?) := by
    intro g; unfold msgsOf; rw [List.filterMap_map, List.map_filterMap]
    congr 1; funext p
    cases hf : file[p.2]? <;> simp [hf]
  rw [this g, this g', h]

/-- The grouping does not depend on the handles. -/
theorem group_handles (sg sg2 : Int) (ch : Str) (ext ext' : Option Nat) (ms ms' : List (Nat × GMsg α))
    (h : ms.map (·.2) = ms'.map (·.2)) :
    (group sg sg2 ch ext ms).1 = (group sg sg2 ch ext' ms').1 := by
  have loop : ∀ (nj0 : Int) (ms ms' : List (Nat × GMsg α)) (st st' : SelSt α), ms.map (·.2) = ms'.map (·.2) →
      (st.inputStep = st'.inputStep ∧ st.grid2 = st'.grid2 ∧ st.first = st'.first ∧ st.second = st'.second) →
      let a := ms.foldl (selStep nj0 sg2 ch) st
      let b := ms'.foldl (selStep nj0 sg2 ch) st'
      (a.inputStep = b.inputStep ∧ a.grid2 = b.grid2 ∧ a.first = b.first ∧ a.second = b.second) := by
    intro nj0 ms
    induction ms with
    | nil =>
      intro ms' st st' h hs
      cases ms' with
      | nil => exact hs
      | cons _ _ => cases h
    | cons p ms ih =>
      intro ms' st st' h hs
      cases ms' with
      | nil => cases h
      | cons p' ms' =>
        rw [List.map_cons, List.map_cons, List.cons.injEq] at h
        rw [List.foldl_cons, List.foldl_cons]
        refine ih ms' _ _ h.2 ?_
        obtain ⟨e1, e2, e3, e4⟩ := hs
        unfold selStep
        rw [h.1, e1, e2, e3, e4]
        dsimp only
        split_ifs <;> simp_all
  cases ms with
  | nil =>
    cases ms' with
    | nil => rfl
    | cons _ _ => cases h
  | cons p ms =>
    cases ms' with
    | nil => cases h
    | cons p' ms' =>
      have hp : p.2 = p'.2 := by rw [List.map_cons, List.map_cons, List.cons.injEq] at h; exact h.1
      obtain ⟨-, e2, e3, e4⟩ := loop p.2.nj (p :: ms) (p' :: ms') ⟨sg, false, ext, [], []⟩
        ⟨sg, false, ext', [], []⟩ h ⟨rfl, rfl, rfl, rfl⟩
      unfold group
      dsimp only
      rw [← hp, e2, e3, e4]

/-- The results of the information request and of a selection, in index mode, are the same in two states
of a reader (for a selection: with the same known input steps). -/
theorem index_mode_results (file : List (GMsg α)) (r r' : Reader) (kw : Kwargs) (b : Bool)
    (h : r.src = .index b) (h' : r'.src = .index b) :
    (gribInfo file r kw).1 = (gribInfo file r' kw).1 ∧
    (r.stepGrib = r'.stepGrib → r.stepGrib2 = r'.stepGrib2 → r.changeStepAt = r'.changeStepAt →
      (Reader.select file r kw).1 = (Reader.select file r' kw).1) := by
  obtain ⟨h1, -⟩ := getGids_pos_index file r r' kw b h h'
  have keep : ∀ r : Reader, (getGids file r kw).2.stepGrib = r.stepGrib ∧
      (getGids file r kw).2.stepGrib2 = r.stepGrib2 ∧ (getGids file r kw).2.changeStepAt = r.changeStepAt := by
    intro r
    have sc : ∀ (r : Reader) (kw : Kwargs), (scan file r kw).2.stepGrib = r.stepGrib ∧
        (scan file r kw).2.stepGrib2 = r.stepGrib2 ∧ (scan file r kw).2.changeStepAt = r.changeStepAt := by
      intro r kw; unfold scan
      cases Dict.get? kw "shortName".toList <;> exact ⟨rfl, rfl, rfl⟩
    have s1 := sc r kw
    unfold getGids
    cases ha : scan file r kw with
    | mk a ra =>
      rw [ha] at s1
      cases a with
      | error e => exact s1
      | ok g =>
        dsimp only
        by_cases hc : g.length = 0 ∧ excludesZero kw = true
        · rw [if_pos hc]
          have s2 := sc ra (relaxed kw)
          exact ⟨s2.1.trans s1.1, s2.2.1.trans s1.2.1, s2.2.2.trans s1.2.2⟩
        · rw [if_neg hc]; exact s1
  have k := keep r
  have k' := keep r'
  unfold gribInfo Reader.select
  cases ha : getGids file r kw with
  | mk a ra =>
    cases hb : getGids file r' kw with
    | mk a' ra' =>
      rw [ha, hb] at h1
      rw [ha] at k; rw [hb] at k'
      cases a with
      | error e =>
        cases a' with
        | error e' =>
          have : (Except.error e : Py (List Nat)) = Except.error e' := h1
          cases this
          exact ⟨rfl, fun _ _ _ => rfl⟩
        | ok g' => cases h1
      | ok g =>
        cases a' with
        | error e' => cases h1
        | ok g' =>
          have hg : g.map (·.2) = g'.map (·.2) := by
            have : (Except.ok (g.map (·.2)) : Py (List Nat)) = Except.ok (g'.map (·.2)) := h1
            exact Except.ok.inj this
          have hlen : g.length = g'.length := by
            have := congrArg List.length hg; simpa using this
          dsimp only
          by_cases hc : g.length > 0
          · have hc' : g'.length > 0 := hlen ▸ hc
            rw [if_pos hc, if_pos hc', stepsOf_pos file g g' hg, if_pos hc, if_pos hc']
            refine ⟨?_, ?_⟩
            · cases findStartEnd (stepsOf file g') <;> rfl
            · intro e1 e2 e3
              dsimp only at k k' ⊢
              rw [k.1, k.2.1, k.2.2, k'.1, k'.2.1, k'.2.2, e1, e2, e3]
              exact congrArg Except.ok (group_handles _ _ _ _ _ _ _ (msgsOf_pos file g g' hg))
          · have hc' : ¬ g'.length > 0 := hlen ▸ hc
            rw [if_neg hc, if_neg hc', if_neg hc, if_neg hc']
            exact ⟨rfl, fun _ _ _ => rfl⟩

theorem step_index (file : List (GMsg α)) (r : Reader) (o : Op) (b : Bool) (ho : o ≠ .close)
    (h : r.src = .index b) : (step file r o).src = .index b := by
  cases o with
  | close => exact absurd rfl ho
  | info kw =>
    obtain ⟨-, h1⟩ := getGids_pos_index file r r kw b h h
    change (gribInfo file r kw).2.src = _
    unfold gribInfo
    cases ha : getGids file r kw with
    | mk a ra =>
      rw [ha] at h1
      cases a with
      | error e => exact h1
      | ok g =>
        dsimp only
        split_ifs
        · cases findStartEnd (stepsOf file g) <;> exact h1
        · exact h1
  | select kw =>
    obtain ⟨-, h1⟩ := getGids_pos_index file r r kw b h h
    change (Reader.select file r kw).2.src = _
    unfold Reader.select
    cases ha : getGids file r kw with
    | mk a ra =>
      rw [ha] at h1
      cases a with
      | error e => exact h1
      | ok g =>
        dsimp only
        split_ifs <;> exact h1
  | aux =>
    change (Reader.aux r).2.src = _
    unfold Reader.aux
    cases r.main <;> exact h

/-- C31, index mode: after any history without `close`, the information request gives the answer of a
fresh reader, and a selection gives the answer of a fresh reader that knows the same input steps. -/
theorem C31_history_partial (file : List (GMsg α)) (withPert : Bool) (w : World) (ops : List Op) (kw : Kwargs)
    (hops : Op.close ∉ ops) :
    let r0 := init true withPert w
    let r := run file r0 ops
    (gribInfo file r kw).1 = (gribInfo file r0 kw).1 ∧
    (Reader.select file r kw).1 = (Reader.select file
      { r0 with
        stepGrib := r.stepGrib
        stepGrib2 := r.stepGrib2
        changeStepAt := r.changeStepAt } kw).1 := by
  intro r0 r
  have h0 : r0.src = .index withPert := rfl
  have hr : r.src = .index withPert := by
    have : ∀ (ops : List Op) (r1 : Reader), Op.close ∉ ops → r1.src = .index withPert →
        (run file r1 ops).src = .index withPert := by
      intro ops
      induction ops with
      | nil => intro r1 _ h; exact h
      | cons o ops ih =>
        intro r1 ho h
        exact ih (step file r1 o) (fun hm => ho (List.mem_cons_of_mem _ hm))
          (step_index file r1 o withPert (fun he => ho (by rw [he]; simp)) h)
    exact this ops r0 hops h0
  refine ⟨(index_mode_results file r r0 kw withPert hr h0).1, ?_⟩
  exact (index_mode_results file r _ kw withPert hr rfl).2 rfl rfl rfl

/-- C31 is violated for files that cannot be indexed: after one information request a selection finds
nothing, because the file is not rewound. -/
theorem C31_violated :
    (gribInfo exFile (init false false ⟨0, [], [], false⟩) exKw2).1 = .ok ⟨0, 18, 6, -1, []⟩ ∧
    (∃ s r, Reader.select exFile (init false false ⟨0, [], [], false⟩) exKw2 = (.ok s, r)) ∧
    ∃ r, Reader.select exFile (run exFile (init false false ⟨0, [], [], false⟩) [.info exKw2]) exKw2 =
      (.error (.app 3000), r) :=
  ⟨by decide +kernel, ⟨_, _, rfl⟩, ⟨_, rfl⟩⟩

example : Op.close ∉ [Op.info exKw2, .select exKw2] := by simp

end PyG2P
