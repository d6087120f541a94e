import Verif.Model.Bilinear
import Verif.Props.ScipyGeom

/-! # C96-C99: choice of the corners in the bilinear method -/

namespace PyG2P
open ScipyLib

/-! ## Shape checks -/

theorem argmaxBy_some {α : Type} (key : α → ℚ) {l : List α} (h : l ≠ []) : ∃ a, argmaxBy key l = some a := by
  cases l with
  | nil => exact absurd rfl h
  | cons a l => exact ⟨_, rfl⟩

theorem argmaxBy_mem {α : Type} (key : α → ℚ) {l : List α} {a : α} (h : argmaxBy key l = some a) : a ∈ l := by
  cases l with
  | nil => cases h
  | cons b l =>
    unfold argmaxBy at h
    cases h
    have : ∀ (l : List α) (b : α), l.foldl (fun m b => if key m < key b then b else m) b ∈ b :: l := by
      intro l
      induction l with
      | nil => intro b; exact List.mem_cons_self
      | cons c l ih =>
        intro b
        rw [List.foldl_cons]
        have := ih (if key b < key c then c else b)
        rcases List.mem_cons.1 this with h | h
        · rw [h]
          split
          · exact List.mem_cons_of_mem _ List.mem_cons_self
          · exact List.mem_cons_self
        · exact List.mem_cons_of_mem _ (List.mem_cons_of_mem _ h)
    exact this l b

theorem giveUp_nil (t : Pt) (fuel : Nat) (l : List Corner) (hf : 0 < fuel) : giveUp t fuel l = [] ↔ l.length ≤ 2 := by
  cases fuel with
  | zero => omega
  | succ f =>
    unfold giveUp
    by_cases h : 2 < l.length
    · rw [if_pos h]
      obtain ⟨a, ha⟩ := argmaxBy_some (dirKey t) (l := l) (by rintro rfl; simp at h)
      rw [ha]
      simp only [List.cons_ne_nil, false_iff]
      omega
    · rw [if_neg h]
      simp only [true_iff]
      omega

theorem sameAsEarlier_nil (cs : List Corner) : sameAsEarlier cs = [] ↔ (cs.map (·.pt)).Nodup := by
  unfold sameAsEarlier
  rw [List.map_eq_nil_iff, List.filter_eq_nil_iff, List.Nodup, List.pairwise_map, List.pairwise_iff_getElem]
  constructor
  · intro h i j hi hj hij he
    have := h (cs[j], j) (by rw [List.mem_zipIdx_iff_getElem?]; exact List.getElem?_eq_getElem hj)
    apply this
    rw [List.any_eq_true]
    exact ⟨cs[i], by rw [List.mem_take_iff_getElem]; exact ⟨i, by omega, rfl⟩, decide_eq_true he⟩
  · rintro h ⟨c, j⟩ hc hany
    rw [List.any_eq_true] at hany
    obtain ⟨d, hd, he⟩ := hany
    rw [List.mem_zipIdx_iff_getElem?] at hc
    obtain ⟨hj, hcj⟩ := List.getElem?_eq_some_iff.1 hc
    rw [List.mem_take_iff_getElem] at hd
    obtain ⟨i, hi, hdi⟩ := hd
    have he := of_decide_eq_true he
    dsimp only at he hi hj hcj
    refine h i j (by omega) hj (by omega) ?_
    rw [hdi, hcj]
    exact he

theorem up_down_length (t : Pt) (cs : List Corner) : (up t cs).length + (down t cs).length = cs.length := by
  unfold up down
  induction cs with
  | nil => rfl
  | cons c cs ih =>
    rw [List.filter_cons, List.filter_cons]
    by_cases h : c.pt.lat ≤ t.lat
    · rw [if_pos (decide_eq_true h), if_neg (by rw [decide_eq_true_eq]; exact not_lt.2 h)]
      simp only [List.length_cons]
      omega
    · rw [if_neg (by rw [decide_eq_true_eq]; exact h), if_pos (decide_eq_true (not_le.1 h))]
      simp only [List.length_cons]
      omega

/-- The first check accepts exactly the four corners that are different points, two of them not north and two north of
the target. -/
theorem direction_check (t : Pt) (cs : List Corner) (h4 : cs.length = 4) :
    wrongDirection t cs = [] ↔ (cs.map (·.pt)).Nodup ∧ (cs.filter fun c => c.pt.lat ≤ t.lat).length = 2 ∧
      (cs.filter fun c => t.lat < c.pt.lat).length = 2 := by
  have hs := up_down_length t cs
  have hu : up t cs = cs.filter fun c => c.pt.lat ≤ t.lat := rfl
  have hd : down t cs = cs.filter fun c => t.lat < c.pt.lat := rfl
  rw [← hu, ← hd]
  unfold wrongDirection
  by_cases h : sameAsEarlier cs = []
  · rw [if_neg (not_not.2 h), List.append_eq_nil_iff, giveUp_nil _ _ _ (by omega), giveUp_nil _ _ _ (by omega)]
    rw [sameAsEarlier_nil] at h
    constructor
    · rintro ⟨a, b⟩; exact ⟨h, by omega, by omega⟩
    · rintro ⟨-, a, b⟩; exact ⟨by omega, by omega⟩
  · rw [if_pos h]
    constructor
    · intro hh; exact absurd hh h
    · rintro ⟨hh, -⟩; rw [← sameAsEarlier_nil] at hh; exact absurd hh h

theorem two_two {t : Pt} {cs : List Corner} (h4 : cs.length = 4) (h : wrongDirection t cs = []) :
    ∃ a b c d, up t cs = [a, b] ∧ down t cs = [c, d] := by
  have := ((direction_check t cs h4).1 h).2
  obtain ⟨a, b, hab⟩ := List.length_eq_two.1 this.1
  obtain ⟨c, d, hcd⟩ := List.length_eq_two.1 this.2
  exact ⟨a, b, c, d, hab, hcd⟩

/-- The later checks are only reached by four corners for which they do not fail. -/
theorem shape_checks_total (t : Pt) (cs : List Corner) (h4 : cs.length = 4) (h : wrongDirection t cs = []) :
    (∃ r, wrongGridLike t cs = .ok r) ∧ ∃ r, wrongBestGridLike t cs = .ok r := by
  obtain ⟨a, b, c, d, hu, hd⟩ := two_two h4 h
  constructor
  · unfold wrongGridLike
    rw [hu, hd]
    dsimp only
    split
    · exact ⟨_, rfl⟩
    · split <;> exact ⟨_, rfl⟩
  · unfold wrongBestGridLike
    obtain ⟨m, hm⟩ := argmaxBy_some (fun c : Corner => -|c.pt.lon - t.lon|) (l := cs) (by rintro rfl; simp at h4)
    rw [hu, hd, hm]
    dsimp only
    split
    · have : ∀ (b : Bool) (x y : Option (Nat × Pt)), ∃ r, (if b = true then (.ok x : Py (Option (Nat × Pt))) else .ok y) = .ok r := by
        intro b x y
        cases b
        · exact ⟨_, rfl⟩
        · exact ⟨_, rfl⟩
      exact this _ _ _
    · exact ⟨_, rfl⟩

theorem farFirst_pair (key : Corner → ℚ) (a b : Corner) : farFirst key a b = (a, b) ∨ farFirst key a b = (b, a) := by
  unfold farFirst
  split
  · right; rfl
  · left; rfl

/-- The second check accepts exactly when the two southern corners differ in latitude by at most a tenth of the distance
of the nearest row, and so do the two northern ones. -/
theorem rows_check (t : Pt) (cs : List Corner) (a b c d : Corner) (hu : up t cs = [a, b]) (hd : down t cs = [c, d]) :
    wrongGridLike t cs = .ok none ↔
      |a.pt.lat - b.pt.lat| ≤ 1 / 10 * nearestRow t cs ∧ |c.pt.lat - d.pt.lat| ≤ 1 / 10 * nearestRow t cs := by
  unfold wrongGridLike
  rw [hu, hd]
  dsimp only
  have e : ∀ (key : Corner → ℚ) (x y : Corner), |(farFirst key x y).1.pt.lat - (farFirst key x y).2.pt.lat| =
      |x.pt.lat - y.pt.lat| := by
    intro key x y
    rcases farFirst_pair key x y with h | h
    · rw [h]
    · rw [h]; exact abs_sub_comm _ _
  rw [e, e]
  by_cases h1 : 1 / 10 * nearestRow t cs < |a.pt.lat - b.pt.lat|
  · rw [if_pos h1]
    simp only [Except.ok.injEq, reduceCtorEq, false_iff, not_and]
    intro hh
    linarith
  · rw [if_neg h1]
    by_cases h2 : 1 / 10 * nearestRow t cs < |c.pt.lat - d.pt.lat|
    · rw [if_pos h2]
      simp only [Except.ok.injEq, reduceCtorEq, false_iff, not_and]
      intro _ hh
      linarith
    · rw [if_neg h2]
      simp only [true_iff]
      exact ⟨not_lt.1 h1, not_lt.1 h2⟩

/-! ## Replacements -/

theorem putIndex_length (idx : List Nat) (i v : Nat) : (putIndex idx i v).length = idx.length := by
  unfold putIndex; rw [List.length_map]

theorem putAll_induct (P : List Nat → Prop) (wrong new idx idx' : List Nat)
    (hput : ∀ l i v, v ∈ new → P l → P (putIndex l i v)) (h0 : P idx) (h : putAll idx wrong new = .ok idx') : P idx' := by
  unfold putAll at h
  generalize wrong.zipIdx = w at h
  induction w generalizing idx with
  | nil => cases h; exact h0
  | cons p w ih =>
    rw [List.foldlM_cons] at h
    cases hv : new.reverse[p.2]? with
    | none => rw [hv] at h; cases h
    | some v =>
      rw [hv] at h
      exact ih _ (hput _ _ _ (List.mem_reverse.1 (List.mem_of_getElem? hv)) h0) h

theorem putAll_length {wrong new idx idx' : List Nat} (h : putAll idx wrong new = .ok idx') : idx'.length = idx.length :=
  putAll_induct (fun l => l.length = idx.length) wrong new idx idx'
    (fun l i v _ hl => by rw [putIndex_length]; exact hl) rfl h

theorem putAll_dup {wrong new idx idx' : List Nat} (hd : ¬ idx.Nodup) (h : putAll idx wrong new = .ok idx') : ¬ idx'.Nodup :=
  putAll_induct (fun l => ¬ l.Nodup) wrong new idx idx'
    (fun l i v _ hl hn => hl (by unfold putIndex at hn; exact List.Nodup.of_map _ hn)) hd h

theorem putIndex_nodup {idx : List Nat} {i v : Nat} (hn : idx.Nodup) (hv : v ∉ idx) : (putIndex idx i v).Nodup := by
  unfold putIndex
  refine List.Nodup.map_on ?_ hn
  intro a ha b hb he
  split_ifs at he with h1 h2
  · rw [h1, h2]
  · exact absurd (he ▸ hb) hv
  · exact absurd (he.symm ▸ ha) hv
  · exact he

theorem replaceIndex_ok {E : Around} {wrong idx idx' : List Nat} {extra extra' : Nat}
    (h : replaceIndex E wrong idx extra = .ok (idx', extra')) :
    extra' = extra + wrong.length ∧
      putAll idx wrong ((E.near (4 + (extra + wrong.length))).filter fun i => i ∉ idx) = .ok idx' := by
  unfold replaceIndex at h
  dsimp only [bind, Except.bind] at h
  cases hp : putAll idx wrong ((E.near (4 + (extra + wrong.length))).filter fun i => i ∉ idx) with
  | error e => rw [hp] at h; cases h
  | ok l => rw [hp] at h; cases h; exact ⟨rfl, rfl⟩

theorem replaceClose_ok {E : Around} {wrong idx idx' : List Nat} {p : Pt} {b : Bool}
    (h : replaceClose E wrong p idx = .ok (idx', b)) :
    b = decide (idx'.dedup.length = 4) ∧ putAll idx wrong (E.nearTo p wrong.length) = .ok idx' := by
  unfold replaceClose at h
  dsimp only [bind, Except.bind] at h
  cases hp : putAll idx wrong (E.nearTo p wrong.length) with
  | error e => rw [hp] at h; cases h
  | ok l => rw [hp] at h; cases h; exact ⟨rfl, rfl⟩

theorem replaceOne_nodup {E : Around} {i : Nat} {idx idx' : List Nat} {extra extra' : Nat} (hn : idx.Nodup)
    (h : replaceIndex E [i] idx extra = .ok (idx', extra')) : idx'.Nodup := by
  have hp := (replaceIndex_ok h).2
  unfold putAll at hp
  simp only [List.zipIdx_cons, List.zipIdx_nil, List.foldlM_cons, List.foldlM_nil] at hp
  cases hv : (List.filter (fun i => decide (i ∉ idx)) (E.near (4 + (extra + [i].length)))).reverse[0]? with
  | none => rw [hv] at hp; cases hp
  | some v =>
    rw [hv] at hp
    cases hp
    refine putIndex_nodup hn ?_
    have := List.mem_of_getElem? hv
    rw [List.mem_reverse, List.mem_filter] at this
    exact of_decide_eq_true this.2

/-! ## Rounds -/

theorem cornersOf_spec {E : Around} {idx : List Nat} {cs : List Corner} (h : cornersOf E idx = .ok cs) :
    cs.map (·.ix) = idx ∧ ∀ c ∈ cs, E.coord c.ix = some c.pt := by
  unfold cornersOf at h
  induction idx generalizing cs with
  | nil => cases h; exact ⟨rfl, fun c hc => by cases hc⟩
  | cons i idx ih =>
    rw [List.mapM_cons] at h
    dsimp only [bind, Except.bind] at h
    cases hi : E.coord i with
    | none => unfold cornerAt at h; rw [hi] at h; cases h
    | some p =>
      have hca : cornerAt E i = .ok ⟨p, i⟩ := by unfold cornerAt; rw [hi]
      rw [hca] at h
      dsimp only at h
      cases hm : idx.mapM (cornerAt E) with
      | error e => rw [hm] at h; cases h
      | ok l =>
        rw [hm] at h
        cases h
        obtain ⟨h1, h2⟩ := ih hm
        refine ⟨by rw [List.map_cons, h1], fun c hc => ?_⟩
        rcases List.mem_cons.1 hc with rfl | hc
        · exact hi
        · exact h2 c hc

/-- What holds of every state of the search: four indexes, all different once the shape has been checked. -/
def ScipyLib.Search.Inv (s : Search) : Prop := s.idx.length = 4 ∧ (s.checked = true → s.idx.Nodup)

theorem corners_nodup {E : Around} {idx : List Nat} {cs : List Corner} (h : cornersOf E idx = .ok cs)
    (hn : (cs.map (·.pt)).Nodup) : idx.Nodup := by
  obtain ⟨h1, h2⟩ := cornersOf_spec h
  rw [← h1]
  refine List.Nodup.map_on ?_ (List.Nodup.of_map _ hn)
  intro a ha b hb he
  have e1 := h2 a ha
  have e2 := h2 b hb
  rw [he, e2] at e1
  cases a; cases b
  dsimp only at *
  cases e1
  rw [he]

/-- The corners that a search ends with: `q` are the source points `idx`, with the coordinates of the cell's
surroundings; the target is in their quadrilateral, which is convex unless the source grid is rotated. -/
def Spec.OwnCorners (E : Around) (rotated : Bool) (idx : List Nat) (q : Quad) : Prop :=
  [q.1.ix, q.2.1.ix, q.2.2.1.ix, q.2.2.2.ix].Perm idx ∧ idx.Nodup ∧
    (∀ c ∈ [q.1, q.2.1, q.2.2.1, q.2.2.2], E.coord c.ix = some c.pt) ∧
    inQuadrilateral E.target q.1.pt q.2.1.pt q.2.2.1.pt q.2.2.2.pt = true ∧
    (rotated = false → isConvex q.1.pt q.2.1.pt q.2.2.1.pt q.2.2.2.pt = true)

/-- `q` are four different source points, with the coordinates of the cell's surroundings. -/
def Spec.OwnPoints (E : Around) (q : Quad) : Prop :=
  [q.1.ix, q.2.1.ix, q.2.2.1.ix, q.2.2.2.ix].Nodup ∧ ∀ c ∈ [q.1, q.2.1, q.2.2.1, q.2.2.2], E.coord c.ix = some c.pt

theorem roundQuad_spec {E : Around} {rotated : Bool} {s : Search} {cs : List Corner} {r : Round}
    (hc : cornersOf E s.idx = .ok cs) (h4 : s.idx.length = 4) (hn : s.idx.Nodup)
    (h : roundQuad E rotated s cs = .ok r) :
    (∃ s', r = .again s' ∧ s'.Inv ∧ s'.checked = true ∧ s'.extra = s.extra + 1 ∧
      ∃ q, s'.held = some q ∧ Spec.OwnPoints E q) ∨
    (∃ s' q, r = .found s' ∧ s'.held = some q ∧ s'.idx = s.idx ∧ Spec.OwnCorners E rotated s'.idx q) := by
  obtain ⟨hix, hco⟩ := cornersOf_spec hc
  have hl : cs.length = 4 := by rw [← h4, ← hix, List.length_map]
  obtain ⟨p1, p2, p3, p4, hcl, hperm, -⟩ := corners_permuted cs hl
  have hown : Spec.OwnPoints E (p1, p2, p3, p4) := by
    have hp := hperm.map (fun c : Corner => c.ix)
    rw [hix] at hp
    exact ⟨hp.nodup_iff.2 hn, fun c hcm => hco c (hperm.mem_iff.1 hcm)⟩
  unfold roundQuad at h
  rw [hcl] at h
  dsimp only at h
  by_cases hcv : rotated = false ∧ isConvex p1.pt p2.pt p3.pt p4.pt = false
  · rw [if_pos hcv] at h
    cases hnc : E.nonConvex p1 p2 p3 p4 with
    | none => rw [hnc] at h; cases h
    | some i =>
      rw [hnc] at h
      dsimp only [bind, Except.bind] at h
      cases hr : replaceIndex E [i] s.idx s.extra with
      | error e => rw [hr] at h; cases h
      | ok p =>
        obtain ⟨idx', extra'⟩ := p
        rw [hr] at h
        cases h
        left
        have hr' := replaceIndex_ok hr
        exact ⟨_, rfl, ⟨by dsimp only; rw [putAll_length hr'.2]; exact h4, fun _ => replaceOne_nodup hn hr⟩, rfl, hr'.1, _, rfl, hown⟩
  · rw [if_neg hcv] at h
    by_cases hq : inQuadrilateral E.target p1.pt p2.pt p3.pt p4.pt = true
    · rw [if_pos hq] at h
      cases h
      right
      refine ⟨_, (p1, p2, p3, p4), rfl, rfl, rfl, ?_, hn, ?_, hq, ?_⟩
      · have := hperm.map (fun c : Corner => c.ix)
        rw [hix] at this
        exact this
      · intro c hcm
        exact hco c (hperm.mem_iff.1 hcm)
      · intro hr
        dsimp only
        by_contra hh
        exact hcv ⟨hr, by rw [Bool.not_eq_true] at hh; exact hh⟩
    · rw [if_neg hq] at h
      dsimp only [bind, Except.bind] at h
      cases hr : replaceIndex E [s.idx.getD 3 0] s.idx s.extra with
      | error e => rw [hr] at h; cases h
      | ok p =>
        obtain ⟨idx', extra'⟩ := p
        rw [hr] at h
        cases h
        left
        have hr' := replaceIndex_ok hr
        exact ⟨_, rfl, ⟨by dsimp only; rw [putAll_length hr'.2]; exact h4, fun _ => replaceOne_nodup hn hr⟩, rfl, hr'.1, _, rfl, hown⟩

theorem roundChecks_spec {E : Around} {rotated : Bool} {s : Search} {cs : List Corner} {r : Round}
    (hc : cornersOf E s.idx = .ok cs) (h4 : s.idx.length = 4) (hch : s.checked = false)
    (h : roundChecks E rotated s cs = .ok r) :
    (∃ s', r = .again s' ∧ s'.Inv ∧ ((s'.checked = false ∧ s'.held = s.held) ∨ (s'.checked = true ∧ s'.extra = s.extra + 1 ∧
      ∃ q, s'.held = some q ∧ Spec.OwnPoints E q))) ∨
    (r = .single s ∧ E.beyond = true) ∨
    (∃ s' q, r = .found s' ∧ s'.held = some q ∧ s'.idx = s.idx ∧ Spec.OwnCorners E rotated s'.idx q) := by
  obtain ⟨hix, -⟩ := cornersOf_spec hc
  have hl : cs.length = 4 := by rw [← h4, ← hix, List.length_map]
  have inv : ∀ (idx : List Nat) (e : Nat), idx.length = 4 → Search.Inv { s with idx := idx, extra := e } :=
    fun idx e hi => ⟨hi, fun hh => by rw [hch] at hh; cases hh⟩
  unfold roundChecks at h
  dsimp only at h
  by_cases hw : wrongDirection E.target cs = []
  · rw [if_neg (not_not.2 hw)] at h
    obtain ⟨⟨g, hg⟩, ⟨b, hb⟩⟩ := shape_checks_total E.target cs hl hw
    rw [hg] at h
    dsimp only [bind, Except.bind] at h
    cases g with
    | some i =>
      dsimp only at h
      cases hr : replaceIndex E [i] s.idx s.extra with
      | error e => rw [hr] at h; cases h
      | ok p =>
        obtain ⟨idx', extra'⟩ := p
        rw [hr] at h
        cases h
        left
        exact ⟨_, rfl, inv _ _ (by rw [putAll_length (replaceIndex_ok hr).2]; exact h4), Or.inl ⟨hch, rfl⟩⟩
    | none =>
      dsimp only at h
      rw [hb] at h
      dsimp only at h
      cases b with
      | some ip =>
        obtain ⟨i, place⟩ := ip
        dsimp only at h
        cases hr : replaceClose E [i] place s.idx with
        | error e => rw [hr] at h; cases h
        | ok p =>
          obtain ⟨idx', four⟩ := p
          rw [hr] at h
          cases h
          left
          exact ⟨_, rfl, inv _ _ (by rw [putAll_length (replaceClose_ok hr).2]; exact h4), Or.inl ⟨hch, rfl⟩⟩
      | none =>
        dsimp only at h
        have hn := corners_nodup hc ((direction_check E.target cs hl).1 hw).1
        rcases roundQuad_spec hc h4 hn h with ⟨s', h1, h2, h3, h5⟩ | h1
        · exact Or.inl ⟨s', h1, h2, Or.inr ⟨h3, h5⟩⟩
        · exact Or.inr (Or.inr h1)
  · rw [if_pos hw] at h
    by_cases hb : E.beyond = true
    · rw [if_pos hb] at h
      dsimp only [bind, Except.bind] at h
      cases hr : replaceClose E (wrongDirection E.target cs) ⟨180 - E.target.lat, E.target.lon⟩ s.idx with
      | error e => rw [hr] at h; cases h
      | ok p =>
        obtain ⟨idx', four⟩ := p
        rw [hr] at h
        dsimp only at h
        cases four with
        | true =>
          rw [if_pos rfl] at h
          cases h
          left
          exact ⟨_, rfl, inv _ _ (by rw [putAll_length (replaceClose_ok hr).2]; exact h4), Or.inl ⟨hch, rfl⟩⟩
        | false =>
          rw [if_neg (by decide)] at h
          cases h
          right; left; exact ⟨rfl, hb⟩
    · rw [if_neg hb] at h
      dsimp only [bind, Except.bind] at h
      cases hr : replaceIndex E (wrongDirection E.target cs) s.idx s.extra with
      | error e => rw [hr] at h; cases h
      | ok p =>
        obtain ⟨idx', extra'⟩ := p
        rw [hr] at h
        cases h
        left
        exact ⟨_, rfl, inv _ _ (by rw [putAll_length (replaceIndex_ok hr).2]; exact h4), Or.inl ⟨hch, rfl⟩⟩

/-- One round, in all cases. -/
theorem round_spec {E : Around} {rotated : Bool} {s : Search} {r : Round} (hi : s.Inv) (h : oneRound E rotated s = .ok r) :
    (∃ s', r = .again s' ∧ s'.Inv ∧ ((s.checked = false ∧ s'.checked = false ∧ s'.held = s.held) ∨
      (s'.checked = true ∧ s'.extra = s.extra + 1 ∧
      ∃ q, s'.held = some q ∧ Spec.OwnPoints E q))) ∨
    (r = .single s ∧ E.beyond = true) ∨ (r = .leftOut s ∧ E.skip = true) ∨
    (∃ s' q, r = .found s' ∧ s'.held = some q ∧ Spec.OwnCorners E rotated s'.idx q) := by
  unfold oneRound at h
  dsimp only [bind, Except.bind] at h
  cases hc : cornersOf E s.idx with
  | error e => rw [hc] at h; cases h
  | ok cs =>
    rw [hc] at h
    dsimp only at h
    by_cases hk : E.skip = true
    · rw [if_pos hk] at h
      cases h
      exact Or.inr (Or.inr (Or.inl ⟨rfl, hk⟩))
    · rw [if_neg hk] at h
      by_cases hch : s.checked = true
      · rw [if_pos hch] at h
        rcases roundQuad_spec hc hi.1 (hi.2 hch) h with ⟨s', h1, h2, h3, h5⟩ | ⟨s', q, h1, h2, h3, h5⟩
        · exact Or.inl ⟨s', h1, h2, Or.inr ⟨h3, h5⟩⟩
        · exact Or.inr (Or.inr (Or.inr ⟨s', q, h1, h2, h5⟩))
      · rw [if_neg hch] at h
        rw [Bool.not_eq_true] at hch
        rcases roundChecks_spec hc hi.1 hch h with ⟨s', h1, h2, h3⟩ | h1 | ⟨s', q, h1, h2, h3, h5⟩
        · refine Or.inl ⟨s', h1, h2, ?_⟩
          rcases h3 with h3 | h3
          · exact Or.inl ⟨hch, h3⟩
          · exact Or.inr h3
        · exact Or.inr (Or.inl h1)
        · exact Or.inr (Or.inr (Or.inr ⟨s', q, h1, h2, h5⟩))

/-! ## The search -/

theorem search_again {E : Around} {rotated : Bool} {retries : Nat} {s s' : Search} (hx : s.extra < retries)
    (h : oneRound E rotated s = .ok (.again s')) : search E rotated retries s = search E rotated retries s' := by
  rw [search.eq_1, if_pos hx, h]

theorem search_end {E : Around} {rotated : Bool} {retries : Nat} {s : Search} (hx : ¬ s.extra < retries) :
    search E rotated retries s = some (.ok (.again s)) := by
  rw [search.eq_1, if_neg hx]

/-- Every search that ends, ends in one of these ways: with a Python error; left out; only the nearest point taken
(north or south of all source points); corners found; retries used up after the shape had been accepted (the object holds
four source points of this cell); retries used up before (the object holds what it held at the beginning). -/
theorem search_ends (E : Around) (rotated : Bool) (retries : Nat) (s : Search) (r : Py Round) (hi : s.Inv)
    (h0 : s.checked = true → s.extra < retries) (h : search E rotated retries s = some r) :
    (∃ e, r = .error e) ∨ (∃ s', r = .ok (.leftOut s') ∧ s'.idx.length = 4 ∧ E.skip = true) ∨
    (∃ s', r = .ok (.single s') ∧ s'.idx.length = 4 ∧ E.beyond = true) ∨
    (∃ s' q, r = .ok (.found s') ∧ s'.held = some q ∧ Spec.OwnCorners E rotated s'.idx q) ∨
    (∃ s' q, r = .ok (.again s') ∧ s'.held = some q ∧ Spec.OwnPoints E q) ∨
    (∃ s', r = .ok (.again s') ∧ s'.held = s.held ∧ s.checked = false ∧ retries ≤ s'.extra) := by
  have key := search.partial_correctness E rotated retries (fun s r => s.Inv →
    (s.checked = true → s.extra < retries ∨ ∃ q, s.held = some q ∧ Spec.OwnPoints E q) →
    (∃ e, r = .error e) ∨ (∃ s', r = .ok (.leftOut s') ∧ s'.idx.length = 4 ∧ E.skip = true) ∨
    (∃ s', r = .ok (.single s') ∧ s'.idx.length = 4 ∧ E.beyond = true) ∨
    (∃ s' q, r = .ok (.found s') ∧ s'.held = some q ∧ Spec.OwnCorners E rotated s'.idx q) ∨
    (∃ s' q, r = .ok (.again s') ∧ s'.held = some q ∧ Spec.OwnPoints E q) ∨
    (∃ s', r = .ok (.again s') ∧ s'.held = s.held ∧ s.checked = false ∧ retries ≤ s'.extra)) ?_ s r h hi
    (fun hh => Or.inl (h0 hh))
  · exact key
  intro f ih s r hr hi h0
  by_cases hx : s.extra < retries
  · rw [if_pos hx] at hr
    cases hrd : oneRound E rotated s with
    | error e =>
      rw [hrd] at hr
      cases hr
      exact Or.inl ⟨e, rfl⟩
    | ok rd =>
      rw [hrd] at hr
      rcases round_spec hi hrd with ⟨s', rfl, hi', hc⟩ | ⟨rfl, hb⟩ | ⟨rfl, hk⟩ | ⟨s', q, rfl, hq, ho⟩
      · dsimp only at hr
        have := ih s' r hr hi' (fun hh => by
          rcases hc with ⟨-, hc, -⟩ | ⟨-, -, hq⟩
          · rw [hc] at hh; cases hh
          · exact Or.inr hq)
        rcases this with h1 | h1 | h1 | h1 | h1 | ⟨s2, h1, h2, h3, h4⟩
        · exact Or.inl h1
        · exact Or.inr (Or.inl h1)
        · exact Or.inr (Or.inr (Or.inl h1))
        · exact Or.inr (Or.inr (Or.inr (Or.inl h1)))
        · exact Or.inr (Or.inr (Or.inr (Or.inr (Or.inl h1))))
        · rcases hc with ⟨hc1, -, hc2⟩ | ⟨hc1, -⟩
          · exact Or.inr (Or.inr (Or.inr (Or.inr (Or.inr ⟨s2, h1, by rw [h2, hc2], hc1, h4⟩))))
          · rw [hc1] at h3; cases h3
      · cases hr
        exact Or.inr (Or.inr (Or.inl ⟨s, rfl, hi.1, hb⟩))
      · cases hr
        exact Or.inr (Or.inl ⟨s, rfl, hi.1, hk⟩)
      · cases hr
        exact Or.inr (Or.inr (Or.inr (Or.inl ⟨s', q, rfl, hq, ho⟩)))
  · rw [if_neg hx] at hr
    cases hr
    by_cases hc : s.checked = true
    · rcases h0 hc with h0 | ⟨q, hq, ho⟩
      · exact absurd h0 hx
      · exact Or.inr (Or.inr (Or.inr (Or.inr (Or.inl ⟨s, q, rfl, hq, ho⟩))))
    · exact Or.inr (Or.inr (Or.inr (Or.inr (Or.inr ⟨s, rfl, rfl, by rw [Bool.not_eq_true] at hc; exact hc, by omega⟩))))

/-! ## C96: weights of every cell -/

namespace Spec

/-- A row of the table: the weights are numbers, not negative, and sum to one. -/
def IsMeanRow (row : List (Num × Nat)) : Prop :=
  ∃ w : List ℚ, row.map (·.1) = w.map Num.fin ∧ (∀ x ∈ w, 0 ≤ x) ∧ w.sum = 1

end Spec

theorem rowOf_mean {root : Quad → ℚ × ℚ} {held : Option Quad} {row : List (Num × Nat)} {held' : Option Quad}
    (h : rowOf root held = .ok (row, held')) :
    Spec.IsMeanRow row ∧ ∃ q, held = some q ∧ held' = held ∧
      row.map (·.2) = [q.1.ix, q.2.1.ix, q.2.2.1.ix, q.2.2.2.ix] := by
  unfold rowOf at h
  cases held with
  | none => cases h
  | some q =>
    cases h
    refine ⟨?_, q, rfl, rfl, rfl⟩
    obtain ⟨w1, w2, w3, w4, hw, h1, h2, h3, h4, hs, -⟩ :=
      bilinear_weights (root q) ⟨0, 0⟩ ⟨0, 0⟩ ⟨0, 0⟩ ⟨0, 0⟩ ⟨0, 0⟩ 0 0 0 0
    refine ⟨[w1, w2, w3, w4], by rw [hw]; rfl, ?_, ?_⟩
    · intro x hx
      simp only [List.mem_cons, List.not_mem_nil, or_false] at hx
      rcases hx with rfl | rfl | rfl | rfl <;> assumption
    · simp only [List.sum_cons, List.sum_nil, add_zero]
      linarith

theorem oneRow_mean (idx : List Nat) (h : idx.length = 4) :
    Spec.IsMeanRow (idx.mapIdx fun j i => ((if j = 0 then 1 else 0 : Num), i)) := by
  match idx, h with
  | [a, b, c, d], _ =>
    refine ⟨[1, 0, 0, 0], rfl, ?_, by norm_num⟩
    intro x hx
    simp only [List.mem_cons, List.not_mem_nil, or_false] at hx
    rcases hx with rfl | rfl | rfl | rfl <;> norm_num

/-- The row of a cell that gets no value: NaN as first weight. -/
theorem nanRow (idx : List Nat) (h : idx.length = 4) :
    (idx.mapIdx fun j i => ((if j = 0 then .nan else 0 : Num), i)).map (·.1) = [.nan, 0, 0, 0] := by
  match idx, h with
  | [a, b, c, d], _ => rfl

theorem start_inv {rotated : Bool} {c : BCell} {held : Option Quad} (h4 : c.row.length = 4) (hn : (c.row.map (·.2)).Nodup) :
    Search.Inv ⟨c.row.map (·.2), 0, rotated, held⟩ := ⟨by rw [List.length_map]; exact h4, fun _ => hn⟩

/-- **C96.** Whatever the tree, the solver and the earlier cells gave: a row the bilinear method stores either has
weights that are not negative and sum to one, or marks the cell as missing (NaN weight); the latter only for cells
farther from the source points than the bound, or outside the box of a source grid that is not global. -/
theorem bilinear_rows (rotated : Bool) (bound : ℚ) (retries : Nat) (held : Option Quad) (c : BCell)
    (h4 : c.row.length = 4) (hn : (c.row.map (·.2)).Nodup) (row : List (Num × Nat))
    (held' : Option Quad) (h : bilinearCell rotated bound retries held c = some (.ok (row, held'))) :
    Spec.IsMeanRow row ∨
    (row.map (·.1) = [.nan, 0, 0, 0] ∧ (bound < (c.row.headD (0, 0)).1 ∨ c.around.skip = true)) := by
  unfold bilinearCell at h
  dsimp only at h
  by_cases h1 : (c.row.headD (0, 0)).1 ≤ 1 / 10000000000
  · rw [if_pos h1] at h
    cases h
    exact Or.inl (oneRow_mean _ (by rw [List.length_map]; exact h4))
  · rw [if_neg h1] at h
    by_cases h2 : bound < (c.row.headD (0, 0)).1
    · rw [if_pos h2] at h
      cases h
      exact Or.inr ⟨nanRow _ (by rw [List.length_map]; exact h4), Or.inl h2⟩
    · rw [if_neg h2] at h
      cases hs : search c.around rotated (if rotated = true then 20 else retries) ⟨c.row.map (·.2), 0, rotated, held⟩ with
      | none => rw [hs] at h; cases h
      | some r =>
        rw [hs] at h
        rw [Option.map_some, Option.some.injEq] at h
        have := search_ends c.around rotated _ _ r (start_inv h4 hn) (by
          intro hh
          dsimp only at hh ⊢
          rw [if_pos hh]
          omega) hs
        rcases this with ⟨e, rfl⟩ | ⟨s', rfl, hl, hk⟩ | ⟨s', rfl, hl, -⟩ | ⟨s', q, rfl, -⟩ | ⟨s', q, rfl, -⟩ | ⟨s', rfl, -⟩
        · cases h
        · unfold finishRow at h
          cases h
          exact Or.inr ⟨nanRow _ hl, Or.inr hk⟩
        · unfold finishRow at h
          cases h
          exact Or.inl (oneRow_mean _ hl)
        · exact Or.inl (rowOf_mean h).1
        · exact Or.inl (rowOf_mean h).1
        · exact Or.inl (rowOf_mean h).1

theorem bilinearLoop_rows (step : Nat) (rotated : Bool) (bound : ℚ) (retries : Nat) (cells : List BCell)
    (hc : ∀ c ∈ cells, c.row.length = 4 ∧ (c.row.map (·.2)).Nodup) (held : Option Quad) (rows : List (List (Num × Nat)))
    (h : bilinearLoop step rotated bound retries held cells = some (.ok rows)) :
    List.Forall₂ (fun c row => Spec.IsMeanRow row ∨
      (row.map (·.1) = [.nan, 0, 0, 0] ∧ (bound < (c.row.headD (0, 0)).1 ∨ c.around.skip = true))) cells rows := by
  induction cells generalizing held rows with
  | nil => cases h; exact List.Forall₂.nil
  | cons c cs ih =>
    unfold bilinearLoop at h
    by_cases h0 : step = 0
    · rw [if_pos h0] at h; cases h
    · rw [if_neg h0] at h
      cases hb : bilinearCell rotated bound retries held c with
      | none => rw [hb] at h; cases h
      | some r =>
        cases r with
        | error e => rw [hb] at h; cases h
        | ok rh =>
          obtain ⟨r, held'⟩ := rh
          rw [hb] at h
          dsimp only at h
          cases hl : bilinearLoop step rotated bound retries held' cs with
          | none => rw [hl] at h; cases h
          | some q =>
            cases q with
            | error e => rw [hl] at h; cases h
            | ok rs =>
              rw [hl] at h
              cases h
              have := hc c List.mem_cons_self
              exact List.Forall₂.cons (bilinear_rows rotated bound retries held c this.1 this.2 r held' hb)
                (ih (fun d hd => hc d (List.mem_cons_of_mem _ hd)) held' rs hl)

/-- **C96 (whole table)**: a table the bilinear method builds has one row for every target cell, in order, and every row
has weights that are not negative and sum to one, or marks a cell that is too far away or outside the source grid. -/
theorem bilinear_table (tty rotated : Bool) (bound : ℚ) (nrows : Nat) (cells : List BCell)
    (hc : ∀ c ∈ cells, c.row.length = 4 ∧ (c.row.map (·.2)).Nodup) (rows : List (List (Num × Nat)))
    (h : buildBilinear tty rotated bound nrows cells = some (.ok rows)) :
    List.Forall₂ (fun c row => Spec.IsMeanRow row ∨
      (row.map (·.1) = [.nan, 0, 0, 0] ∧ (bound < (c.row.headD (0, 0)).1 ∨ c.around.skip = true))) cells rows :=
  bilinearLoop_rows _ rotated bound nrows cells hc none rows h

/-! ## C97: corners of every cell -/

/-- **C97 (part)**: a row with weights belongs to four different source points that surround the cell, or to its
nearest point alone, or (retries used up after the shape was accepted) to four source points of the cell that do not
surround it, or (retries used up before) to the corners of an earlier cell; there is no other way. -/
theorem bilinear_corners_partial (rotated : Bool) (bound : ℚ) (retries : Nat) (held : Option Quad) (c : BCell)
    (h4 : c.row.length = 4) (hn : (c.row.map (·.2)).Nodup) (row : List (Num × Nat))
    (held' : Option Quad) (h : bilinearCell rotated bound retries held c = some (.ok (row, held')))
    (hd : 1 / 10000000000 < (c.row.headD (0, 0)).1 ∧ (c.row.headD (0, 0)).1 ≤ bound) (hk : c.around.skip = false) :
    (∃ q idx, Spec.OwnCorners c.around rotated idx q ∧ row.map (·.2) = [q.1.ix, q.2.1.ix, q.2.2.1.ix, q.2.2.2.ix]) ∨
    (row.map (·.1) = [1, 0, 0, 0] ∧ c.around.beyond = true) ∨
    (∃ q, Spec.OwnPoints c.around q ∧ row.map (·.2) = [q.1.ix, q.2.1.ix, q.2.2.1.ix, q.2.2.2.ix]) ∨
    (rotated = false ∧ ∃ q, held = some q ∧ row.map (·.2) = [q.1.ix, q.2.1.ix, q.2.2.1.ix, q.2.2.2.ix]) := by
  unfold bilinearCell at h
  dsimp only at h
  rw [if_neg (not_le.2 hd.1), if_neg (not_lt.2 hd.2)] at h
  cases hs : search c.around rotated (if rotated = true then 20 else retries) ⟨c.row.map (·.2), 0, rotated, held⟩ with
  | none => rw [hs] at h; cases h
  | some r =>
    rw [hs] at h
    rw [Option.map_some, Option.some.injEq] at h
    have := search_ends c.around rotated _ _ r (start_inv h4 hn) (by
      intro hh
      dsimp only at hh ⊢
      rw [if_pos hh]
      omega) hs
    rcases this with ⟨e, rfl⟩ | ⟨s', rfl, hl, hk'⟩ | ⟨s', rfl, hl, hb⟩ | ⟨s', q, rfl, hq, ho⟩ | ⟨s', q, rfl, hq, ho⟩ |
      ⟨s', rfl, hq, hc, -⟩
    · cases h
    · rw [hk] at hk'; cases hk'
    · unfold finishRow at h
      cases h
      right; left
      refine ⟨?_, hb⟩
      match s'.idx, hl with
      | [a, b, c, d], _ => rfl
    · left
      obtain ⟨-, q', hq', -, hrow⟩ := rowOf_mean h
      rw [hq] at hq'
      cases hq'
      exact ⟨q, s'.idx, ho, hrow⟩
    · right; right; left
      obtain ⟨-, q', hq', -, hrow⟩ := rowOf_mean h
      rw [hq] at hq'
      cases hq'
      exact ⟨q, ho, hrow⟩
    · right; right; right
      obtain ⟨-, q', hq', -, hrow⟩ := rowOf_mean h
      rw [hq] at hq'
      exact ⟨hc, q', hq', hrow⟩

end PyG2P
