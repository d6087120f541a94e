import Verif.Props.Bilinear

/-! # C127: which corners the bilinear method gives up -/

namespace PyG2P
open ScipyLib

namespace Spec

/-- Distance of a point of one side: the difference in latitude and a hundredth of the difference in longitude. -/
def rowDistance (t p : Pt) : ℚ := |p.lat - t.lat| + |p.lon - t.lon| / 100

/-- The corners `out` given up among those of one side `l`: different corners of that side, two stay (all of them when
there are at most two), and none that stays is farther than one that goes. -/
structure GivenUp (t : Pt) (l : List Corner) (out : List Nat) : Prop where
  different : out.Nodup
  ofSide : ∀ i ∈ out, ∃ c ∈ l, c.ix = i
  stay : (l.filter fun c => c.ix ∉ out).length = min 2 l.length
  farther : ∀ c ∈ l, ∀ d ∈ l, c.ix ∈ out → d.ix ∉ out → rowDistance t d.pt ≤ rowDistance t c.pt

/-- `u1, u2` are `a, b`, the one nearer to `near` in longitude first (`a` in doubt). -/
def NearerFirst (near a b u1 u2 : Corner) : Prop :=
  (u1 = a ∧ u2 = b ∧ |a.pt.lon - near.pt.lon| ≤ |b.pt.lon - near.pt.lon|) ∨
  (u1 = b ∧ u2 = a ∧ |b.pt.lon - near.pt.lon| < |a.pt.lon - near.pt.lon|)

/-- `near` is the first of the corners nearest to the target in longitude. -/
def NearestLon (t : Pt) (cs : List Corner) (near : Corner) : Prop :=
  ∃ k : Nat, cs[k]? = some near ∧ (∀ c ∈ cs, |near.pt.lon - t.lon| ≤ |c.pt.lon - t.lon|) ∧
    ∀ (j : Nat) (c : Corner), j < k → cs[j]? = some c → |near.pt.lon - t.lon| < |c.pt.lon - t.lon|

/-- `m` is the distance in latitude of the nearest corner. -/
def NearestRow (t : Pt) (cs : List Corner) (m : ℚ) : Prop :=
  (∃ c ∈ cs, |c.pt.lat - t.lat| = m) ∧ ∀ c ∈ cs, m ≤ |c.pt.lat - t.lat|

end Spec

theorem argmaxBy_le {α : Type} (key : α → ℚ) {l : List α} {a : α} (h : argmaxBy key l = some a) :
    ∀ b ∈ l, key b ≤ key a := by
  cases l with
  | nil => cases h
  | cons b l =>
    unfold argmaxBy at h
    cases h
    have : ∀ (l : List α) (b : α), ∀ c ∈ b :: l,
        key c ≤ key (l.foldl (fun m b => if key m < key b then b else m) b) := by
      intro l
      induction l with
      | nil =>
        intro b c hc
        rcases List.mem_cons.1 hc with rfl | hc
        · exact le_refl _
        · cases hc
      | cons d l ih =>
        intro b c hc
        rw [List.foldl_cons]
        have h0 := ih (if key b < key d then d else b)
        have hb : key b ≤ key (if key b < key d then d else b) := by
          split
          · rename_i hh; exact le_of_lt hh
          · exact le_refl _
        have hd : key d ≤ key (if key b < key d then d else b) := by
          split
          · exact le_refl _
          · rename_i hh; exact not_lt.1 hh
        rcases List.mem_cons.1 hc with rfl | hc
        · exact le_trans hb (h0 _ List.mem_cons_self)
        · rcases List.mem_cons.1 hc with rfl | hc
          · exact le_trans hd (h0 _ List.mem_cons_self)
          · exact h0 c (List.mem_cons_of_mem _ hc)
    exact this l b

/-- The first one with the largest key. -/
theorem argmaxBy_first {α : Type} (key : α → ℚ) {l : List α} {k : Nat} {a : α} (hk : l[k]? = some a)
    (hle : ∀ b ∈ l, key b ≤ key a) (hlt : ∀ (j : Nat) (b : α), j < k → l[j]? = some b → key b < key a) :
    argmaxBy key l = some a := by
  cases l with
  | nil => simp at hk
  | cons b l =>
    unfold argmaxBy
    have keep : ∀ (l : List α) (a : α), (∀ b ∈ l, key b ≤ key a) →
        l.foldl (fun m b => if key m < key b then b else m) a = a := by
      intro l
      induction l with
      | nil => intro a _; rfl
      | cons c l ih =>
        intro a h
        rw [List.foldl_cons, if_neg (not_lt.2 (h c List.mem_cons_self))]
        exact ih a fun b hb => h b (List.mem_cons_of_mem _ hb)
    have main : ∀ (l : List α) (b : α) (k : Nat), (b :: l)[k]? = some a → (∀ c ∈ b :: l, key c ≤ key a) →
        (∀ (j : Nat) (c : α), j < k → (b :: l)[j]? = some c → key c < key a) →
        l.foldl (fun m b => if key m < key b then b else m) b = a := by
      intro l
      induction l with
      | nil =>
        intro b k h _ _
        cases k with
        | zero => simpa using h
        | succ k => simp at h
      | cons c l ih =>
        intro b k h h1 h2
        cases k with
        | zero =>
          have : b = a := by simpa using h
          subst this
          exact keep _ _ fun d hd => h1 d (List.mem_cons_of_mem _ hd)
        | succ k =>
          rw [List.foldl_cons]
          have hb : key b < key a := h2 0 b (Nat.succ_pos _) rfl
          by_cases hbc : key b < key c
          · rw [if_pos hbc]
            exact ih c k (by simpa using h) (fun d hd => h1 d (List.mem_cons_of_mem _ hd))
              fun j d hj hd => h2 (j + 1) d (by omega) (by simpa using hd)
          · rw [if_neg hbc]
            cases k with
            | zero =>
              have : c = a := by simpa using h
              subst this
              exact absurd hb hbc
            | succ k =>
              refine ih b (k + 1) (by simpa using h) (fun d hd => ?_) fun j d hj hd => ?_
              · rcases List.mem_cons.1 hd with rfl | hd
                · exact le_of_lt hb
                · exact h1 d (List.mem_cons_of_mem _ (List.mem_cons_of_mem _ hd))
              · cases j with
                | zero =>
                  have : b = d := by simpa using hd
                  subst this
                  exact hb
                | succ j => exact h2 (j + 2) d (by omega) (by simpa using hd)
    exact congrArg some (main l b k hk hle hlt)

theorem dirKey_eq (t : Pt) (c : Corner) : dirKey t c = Spec.rowDistance t c.pt := by
  unfold dirKey Spec.rowDistance
  ring

theorem giveUp_spec (t : Pt) (fuel : Nat) (l : List Corner) (hn : (l.map (·.ix)).Nodup) (hf : l.length ≤ fuel + 2) :
    Spec.GivenUp t l (giveUp t fuel l) := by
  induction fuel generalizing l with
  | zero =>
    refine ⟨List.nodup_nil, fun i hi => (by cases hi), ?_, fun c _ d _ hc => (by cases hc)⟩
    have : (l.filter fun c => c.ix ∉ giveUp t 0 l) = l := by
      rw [List.filter_eq_self]
      intro a _
      exact decide_eq_true (by unfold giveUp; exact List.not_mem_nil)
    rw [this]
    omega
  | succ f ih =>
    unfold giveUp
    by_cases h : 2 < l.length
    · rw [if_pos h]
      obtain ⟨a, ha⟩ := argmaxBy_some (dirKey t) (l := l) (by rintro rfl; simp at h)
      rw [ha]
      dsimp only
      have ham := argmaxBy_mem _ ha
      have hlen : (l.filter fun d => d.ix ≠ a.ix).length + 1 = l.length := by
        clear ih hf h ha
        induction l with
        | nil => cases ham
        | cons b l ih =>
          rw [List.map_cons, List.nodup_cons] at hn
          rw [List.filter_cons]
          rcases List.mem_cons.1 ham with rfl | hm
          · rw [if_neg (by simp)]
            have : (l.filter fun d => d.ix ≠ a.ix) = l := by
              rw [List.filter_eq_self]
              intro d hd
              exact decide_eq_true fun e => hn.1 (e ▸ List.mem_map_of_mem hd)
            rw [this, List.length_cons]
          · have : b.ix ≠ a.ix := fun e => hn.1 (e ▸ List.mem_map_of_mem hm)
            rw [if_pos (decide_eq_true this), List.length_cons, List.length_cons, ih hn.2 hm]
      have hsub : ∀ c, c ∈ (l.filter fun d => d.ix ≠ a.ix) ↔ c ∈ l ∧ c.ix ≠ a.ix := by
        intro c
        rw [List.mem_filter, decide_eq_true_eq]
      have hn' : ((l.filter fun d => d.ix ≠ a.ix).map (·.ix)).Nodup :=
        List.Nodup.sublist (List.Sublist.map _ List.filter_sublist) hn
      have IH := ih (l.filter fun d => d.ix ≠ a.ix) hn' (by omega)
      refine ⟨?_, ?_, ?_, ?_⟩
      · rw [List.nodup_cons]
        refine ⟨fun hm => ?_, IH.different⟩
        obtain ⟨c, hc, he⟩ := IH.ofSide _ hm
        exact ((hsub c).1 hc).2 he
      · intro i hi
        rcases List.mem_cons.1 hi with rfl | hi
        · exact ⟨a, ham, rfl⟩
        · obtain ⟨c, hc, he⟩ := IH.ofSide _ hi
          exact ⟨c, ((hsub c).1 hc).1, he⟩
      · have := IH.stay
        rw [List.filter_filter] at this
        rw [show min 2 l.length = min 2 (l.filter fun d => d.ix ≠ a.ix).length by omega, ← this]
        congr 1
        apply List.filter_congr
        intro c _
        rw [← Bool.decide_and, decide_eq_decide]
        rw [List.mem_cons, not_or]
        exact and_comm
      · intro c hc d hd hci hdi
        rw [List.mem_cons, not_or] at hdi
        rcases List.mem_cons.1 hci with e | hci
        · have hle := argmaxBy_le _ ha d hd
          have hca : c = a := List.inj_on_of_nodup_map hn hc ham e
          rw [hca, ← dirKey_eq, ← dirKey_eq]
          exact hle
        · by_cases hce : c.ix = a.ix
          · obtain ⟨c', hc', he⟩ := IH.ofSide _ hci
            exact absurd (he.trans hce) ((hsub c').1 hc').2
          · exact IH.farther c ((hsub c).2 ⟨hc, hce⟩) d ((hsub d).2 ⟨hd, hdi.1⟩) hci hdi.2
    · rw [if_neg h]
      refine ⟨List.nodup_nil, fun i hi => (by cases hi), ?_, fun c _ d _ hc => (by cases hc)⟩
      have : (l.filter fun c => c.ix ∉ ([] : List Nat)) = l := by
        rw [List.filter_eq_self]
        intro a _
        exact decide_eq_true List.not_mem_nil
      rw [this]
      omega

/-- **C127.** Corners that are the same point as an earlier one are given up, and only those, when there are any. -/
theorem same_point_given_up (t : Pt) (cs : List Corner) (h : ¬ (cs.map (·.pt)).Nodup) (i : Nat) :
    i ∈ wrongDirection t cs ↔
      ∃ (j k : Nat) (c d : Corner), j < k ∧ cs[j]? = some c ∧ cs[k]? = some d ∧ c.pt = d.pt ∧ d.ix = i := by
  unfold wrongDirection
  rw [if_pos (fun e => h ((sameAsEarlier_nil cs).1 e))]
  unfold sameAsEarlier
  rw [List.mem_map]
  constructor
  · rintro ⟨⟨d, k⟩, hd, rfl⟩
    rw [List.mem_filter, List.mem_zipIdx_iff_getElem?, List.any_eq_true] at hd
    obtain ⟨hk, c, hc, he⟩ := hd
    rw [List.mem_take_iff_getElem] at hc
    obtain ⟨j, hj, rfl⟩ := hc
    dsimp only at hj hk
    exact ⟨j, k, cs[j]'(by omega), d, by omega, List.getElem?_eq_getElem _, hk, of_decide_eq_true he, rfl⟩
  · rintro ⟨j, k, c, d, hjk, hj, hk, he, rfl⟩
    refine ⟨(d, k), ?_, rfl⟩
    rw [List.mem_filter, List.mem_zipIdx_iff_getElem?, List.any_eq_true]
    refine ⟨hk, c, ?_, decide_eq_true he⟩
    rw [List.mem_take_iff_getElem]
    obtain ⟨hj', rfl⟩ := List.getElem?_eq_some_iff.1 hj
    obtain ⟨hk', -⟩ := List.getElem?_eq_some_iff.1 hk
    exact ⟨j, by dsimp only; omega, rfl⟩

/-- **C127.** When the corners are different points, of each side (not north of the target, north of it) all but two are
given up, the farthest ones: the difference in longitude counts a hundredth of that in latitude. -/
theorem sides_given_up (t : Pt) (cs : List Corner) (hp : (cs.map (·.pt)).Nodup) (hn : (cs.map (·.ix)).Nodup) :
    ∃ a b, wrongDirection t cs = a ++ b ∧ Spec.GivenUp t (cs.filter fun c => c.pt.lat ≤ t.lat) a ∧
      Spec.GivenUp t (cs.filter fun c => t.lat < c.pt.lat) b := by
  have hs := up_down_length t cs
  have sub : ∀ q : Corner → Bool, ((cs.filter q).map (·.ix)).Nodup := fun q =>
    List.Nodup.sublist (List.Sublist.map _ List.filter_sublist) hn
  refine ⟨giveUp t cs.length (up t cs), giveUp t cs.length (down t cs), ?_, ?_, ?_⟩
  · unfold wrongDirection
    rw [if_neg (not_not.2 ((sameAsEarlier_nil cs).2 hp))]
  · exact giveUp_spec t _ (up t cs) (sub _) (by omega)
  · exact giveUp_spec t _ (down t cs) (sub _) (by omega)

theorem lmin_spec {l : List ℚ} (h : l ≠ []) : lmin l ∈ l ∧ ∀ x ∈ l, lmin l ≤ x := by
  cases l with
  | nil => exact absurd rfl h
  | cons a l =>
    unfold lmin
    have : ∀ (l : List ℚ) (a : ℚ), l.foldl min a ∈ a :: l ∧ ∀ x ∈ a :: l, l.foldl min a ≤ x := by
      intro l
      induction l with
      | nil =>
        intro a
        refine ⟨List.mem_cons_self, fun x hx => ?_⟩
        rcases List.mem_cons.1 hx with rfl | hx
        · exact le_refl _
        · cases hx
      | cons b l ih =>
        intro a
        rw [List.foldl_cons]
        obtain ⟨h1, h2⟩ := ih (min a b)
        constructor
        · rcases List.mem_cons.1 h1 with e | h1
          · rw [e]
            rcases min_choice a b with e | e
            · rw [e]; exact List.mem_cons_self
            · rw [e]; exact List.mem_cons_of_mem _ List.mem_cons_self
          · exact List.mem_cons_of_mem _ (List.mem_cons_of_mem _ h1)
        · intro x hx
          have hm := h2 _ List.mem_cons_self
          rcases List.mem_cons.1 hx with rfl | hx
          · exact le_trans hm (min_le_left _ _)
          · rcases List.mem_cons.1 hx with rfl | hx
            · exact le_trans hm (min_le_right _ _)
            · exact h2 x (List.mem_cons_of_mem _ hx)
    exact this l a

theorem lmax_spec {l : List ℚ} (h : l ≠ []) : lmax l ∈ l ∧ ∀ x ∈ l, x ≤ lmax l := by
  cases l with
  | nil => exact absurd rfl h
  | cons a l =>
    unfold lmax
    have : ∀ (l : List ℚ) (a : ℚ), l.foldl max a ∈ a :: l ∧ ∀ x ∈ a :: l, x ≤ l.foldl max a := by
      intro l
      induction l with
      | nil =>
        intro a
        refine ⟨List.mem_cons_self, fun x hx => ?_⟩
        rcases List.mem_cons.1 hx with rfl | hx
        · exact le_refl _
        · cases hx
      | cons b l ih =>
        intro a
        rw [List.foldl_cons]
        obtain ⟨h1, h2⟩ := ih (max a b)
        constructor
        · rcases List.mem_cons.1 h1 with e | h1
          · rw [e]
            rcases max_choice a b with e | e
            · rw [e]; exact List.mem_cons_self
            · rw [e]; exact List.mem_cons_of_mem _ List.mem_cons_self
          · exact List.mem_cons_of_mem _ (List.mem_cons_of_mem _ h1)
        · intro x hx
          have hm := h2 _ List.mem_cons_self
          rcases List.mem_cons.1 hx with rfl | hx
          · exact le_trans (le_max_left _ _) hm
          · rcases List.mem_cons.1 hx with rfl | hx
            · exact le_trans (le_max_right _ _) hm
            · exact h2 x (List.mem_cons_of_mem _ hx)
    exact this l a

theorem nearestRow_eq {t : Pt} {cs : List Corner} {m : ℚ} (h : Spec.NearestRow t cs m) : nearestRow t cs = m := by
  obtain ⟨⟨c, hc, rfl⟩, h2⟩ := h
  unfold nearestRow
  obtain ⟨k1, k2⟩ := lmin_spec (l := cs.map fun c => |c.pt.lat - t.lat|) (by
    intro e
    rw [List.map_eq_nil_iff] at e
    subst e
    cases hc)
  apply le_antisymm
  · exact k2 _ (List.mem_map_of_mem (f := fun c : Corner => |c.pt.lat - t.lat|) hc)
  · obtain ⟨d, hd, he⟩ := List.mem_map.1 k1
    rw [← he]
    exact h2 d hd

/-- **C127.** Two corners `a`, `b` not north and two, `c`, `d`, north of the target, `m` the distance in latitude of the
nearest one. When `a` and `b` differ in latitude by more than a tenth of `m`, the more southern one is given up;
otherwise, when `c` and `d` do, the more northern one; otherwise none. -/
theorem rows_given_up (t : Pt) (cs : List Corner) (a b c d : Corner) (m : ℚ)
    (hu : (cs.filter fun c => c.pt.lat ≤ t.lat) = [a, b]) (hd : (cs.filter fun c => t.lat < c.pt.lat) = [c, d])
    (hm : Spec.NearestRow t cs m) :
    (m / 10 < |a.pt.lat - b.pt.lat| →
      wrongGridLike t cs = .ok (some (if a.pt.lat < b.pt.lat then a.ix else b.ix))) ∧
    (|a.pt.lat - b.pt.lat| ≤ m / 10 → m / 10 < |c.pt.lat - d.pt.lat| →
      wrongGridLike t cs = .ok (some (if c.pt.lat < d.pt.lat then d.ix else c.ix))) ∧
    (|a.pt.lat - b.pt.lat| ≤ m / 10 → |c.pt.lat - d.pt.lat| ≤ m / 10 → wrongGridLike t cs = .ok none) := by
  have hm0 : 0 ≤ m := by
    obtain ⟨⟨c, -, rfl⟩, -⟩ := hm
    exact abs_nonneg _
  have hu' : up t cs = [a, b] := hu
  have hd' : down t cs = [c, d] := hd
  unfold wrongGridLike
  rw [hu', hd', nearestRow_eq hm]
  dsimp only
  have e : ∀ (key : Corner → ℚ) (x y : Corner), |(farFirst key x y).1.pt.lat - (farFirst key x y).2.pt.lat| =
      |x.pt.lat - y.pt.lat| := by
    intro key x y
    rcases farFirst_pair key x y with h | h
    · rw [h]
    · rw [h]; exact abs_sub_comm _ _
  rw [e, e]
  have e10 : 1 / 10 * m = m / 10 := by ring
  rw [e10]
  refine ⟨fun h => ?_, fun h1 h2 => ?_, fun h1 h2 => ?_⟩
  · rw [if_pos h]
    have hne : a.pt.lat ≠ b.pt.lat := by
      intro e
      rw [e, sub_self, abs_zero] at h
      linarith
    unfold farFirst
    by_cases hab : a.pt.lat < b.pt.lat
    · rw [if_pos hab, if_neg (by linarith)]
    · rw [if_neg hab, if_pos (by
        have := lt_of_le_of_ne (not_lt.1 hab) (Ne.symm hne)
        linarith)]
  · rw [if_neg (not_lt.2 h1), if_pos h2]
    unfold farFirst
    by_cases hcd : c.pt.lat < d.pt.lat
    · rw [if_pos hcd, if_pos (by linarith)]
    · rw [if_neg hcd, if_neg (by linarith)]
  · rw [if_neg (not_lt.2 h1), if_neg (not_lt.2 h2)]

theorem farFirst_nearer {near a b u1 u2 : Corner} (h : Spec.NearerFirst near a b u1 u2) :
    farFirst (fun x : Corner => -|x.pt.lon - near.pt.lon|) a b = (u1, u2) := by
  unfold farFirst
  rcases h with ⟨rfl, rfl, h⟩ | ⟨rfl, rfl, h⟩
  · rw [if_neg (by linarith)]
  · rw [if_pos (by linarith)]

/-- **C127.** Two corners `a`, `b` not north and two, `c`, `d`, north of the target. Of each pair, `u1` / `w1` is the one
nearer in longitude to the corner `near` (the one nearest to the target in longitude), `u2` / `w2` the other one. When
`u2` and `w2` are on the same side of their partners, none is given up. Otherwise the one farther from its partner goes
(the northern one in doubt), but the other one when the target is not in the triangle of the remaining three. Another
point is then looked for at the mirror image of the one given up. -/
theorem opposite_given_up (t : Pt) (cs : List Corner) (a b c d near u1 u2 w1 w2 : Corner)
    (hu : (cs.filter fun c => c.pt.lat ≤ t.lat) = [a, b]) (hd : (cs.filter fun c => t.lat < c.pt.lat) = [c, d])
    (hn : Spec.NearestLon t cs near) (h1 : Spec.NearerFirst near a b u1 u2) (h2 : Spec.NearerFirst near c d w1 w2)
    (hc1 : ¬ Spec.Collinear u2.pt u1.pt w1.pt) (hc2 : ¬ Spec.Collinear w2.pt u1.pt w1.pt) :
    (0 ≤ (u2.pt.lon - u1.pt.lon) * (w2.pt.lon - w1.pt.lon) → wrongBestGridLike t cs = .ok none) ∧
    ((u2.pt.lon - u1.pt.lon) * (w2.pt.lon - w1.pt.lon) < 0 →
      (|u2.pt.lon - u1.pt.lon| ≤ |w2.pt.lon - w1.pt.lon| →
        (Spec.InTriangle t u2.pt u1.pt w1.pt →
          wrongBestGridLike t cs = .ok (some (w2.ix, ⟨w1.pt.lat, w1.pt.lon + (w1.pt.lon - w2.pt.lon)⟩))) ∧
        (¬ Spec.InTriangle t u2.pt u1.pt w1.pt →
          wrongBestGridLike t cs = .ok (some (u2.ix, ⟨u1.pt.lat, u1.pt.lon + (u1.pt.lon - u2.pt.lon)⟩)))) ∧
      (|w2.pt.lon - w1.pt.lon| < |u2.pt.lon - u1.pt.lon| →
        (Spec.InTriangle t w2.pt u1.pt w1.pt →
          wrongBestGridLike t cs = .ok (some (u2.ix, ⟨u1.pt.lat, u1.pt.lon + (u1.pt.lon - u2.pt.lon)⟩))) ∧
        (¬ Spec.InTriangle t w2.pt u1.pt w1.pt →
          wrongBestGridLike t cs = .ok (some (w2.ix, ⟨w1.pt.lat, w1.pt.lon + (w1.pt.lon - w2.pt.lon)⟩))))) := by
  have hu' : up t cs = [a, b] := hu
  have hd' : down t cs = [c, d] := hd
  have hnear : argmaxBy (fun c : Corner => -|c.pt.lon - t.lon|) cs = some near := by
    obtain ⟨k, hk, hle, hlt⟩ := hn
    exact argmaxBy_first _ hk (fun b hb => neg_le_neg (hle b hb)) fun j b hj hb => neg_lt_neg (hlt j b hj hb)
  unfold wrongBestGridLike
  rw [hu', hd', hnear]
  dsimp only
  rw [farFirst_nearer h1, farFirst_nearer h2]
  dsimp only
  have e1 : (w1.pt.lon - w2.pt.lon) * (u1.pt.lon - u2.pt.lon) = (u2.pt.lon - u1.pt.lon) * (w2.pt.lon - w1.pt.lon) := by
    ring
  have e2 : ∀ x y : ℚ, 2 * x - y = x + (x - y) := fun x y => by ring
  rw [e1, abs_sub_comm u1.pt.lon, abs_sub_comm w1.pt.lon]
  refine ⟨fun h => ?_, fun h => ⟨fun hl => ⟨fun hi => ?_, fun hi => ?_⟩, fun hl => ⟨fun hi => ?_, fun hi => ?_⟩⟩⟩
  · rw [if_neg (not_lt.2 h)]
  · rw [if_pos h, if_pos hl]
    dsimp only
    rw [if_pos ((triangle_test_partial _ _ _ _ hc1).2 hi), e2]
  · rw [if_pos h, if_pos hl]
    dsimp only
    rw [if_neg (fun hh => hi ((triangle_test_partial _ _ _ _ hc1).1 hh)), e2]
  · rw [if_pos h, if_neg (not_le.2 hl)]
    dsimp only
    rw [if_pos ((triangle_test_partial _ _ _ _ hc2).2 hi), e2]
  · rw [if_pos h, if_neg (not_le.2 hl)]
    dsimp only
    rw [if_neg (fun hh => hi ((triangle_test_partial _ _ _ _ hc2).1 hh)), e2]

/-- **C66 is violated** in the bilinear method: a block of fewer than 250 target cells raises `ZeroDivisionError` (`nn % 0`). -/
theorem bilinear_few_cells (tty rotated : Bool) (bound : ℚ) (rows : Nat) (cells : List BCell) (h0 : 0 < cells.length)
    (h : cells.length < 250) : buildBilinear tty rotated bound rows cells = some (.error .zeroDivision) := by
  unfold buildBilinear
  have : GribLib.progressStep tty cells.length = 0 := by
    unfold GribLib.progressStep
    have : cells.length / 250 = 0 := by omega
    rw [this]
    cases tty <;> rfl
  rw [this]
  cases cells with
  | nil => simp at h0
  | cons c cs => unfold bilinearLoop; rfl

/-- **C66** in the bilinear method: with 250 cells or more the table has one row per cell as soon as every cell gives a row. -/
theorem bilinear_many_cells (tty rotated : Bool) (bound : ℚ) (rows : Nat) (cells : List BCell) (h : 250 ≤ cells.length)
    (hc : ∀ held, ∀ c ∈ cells, ∃ r, bilinearCell rotated bound rows held c = some (.ok r)) :
    ∃ out, buildBilinear tty rotated bound rows cells = some (.ok out) ∧ out.length = cells.length := by
  unfold buildBilinear
  have hs : GribLib.progressStep tty cells.length ≠ 0 := by
    unfold GribLib.progressStep
    have : 0 < cells.length / 250 := by omega
    cases tty
    · simp only [Bool.false_eq_true, if_false]; omega
    · simp only [if_true]; omega
  generalize GribLib.progressStep tty cells.length = s at hs
  clear h
  have : ∀ (cells : List BCell) (held : Option Quad),
      (∀ held, ∀ c ∈ cells, ∃ r, bilinearCell rotated bound rows held c = some (.ok r)) →
      ∃ out, bilinearLoop s rotated bound rows held cells = some (.ok out) ∧ out.length = cells.length := by
    intro cells
    induction cells with
    | nil => intro held _; exact ⟨[], rfl, rfl⟩
    | cons c cs ih =>
      intro held hc
      obtain ⟨⟨r, held'⟩, hr⟩ := hc held c List.mem_cons_self
      obtain ⟨out, ho, hl⟩ := ih held' fun h c hm => hc h c (List.mem_cons_of_mem _ hm)
      refine ⟨r :: out, ?_, by rw [List.length_cons, List.length_cons, hl]⟩
      unfold bilinearLoop
      rw [if_neg hs, hr]
      dsimp only
      rw [ho]
  exact this cells none hc

/-! ## Concrete cases -/

namespace Demo

def cornersUneven : List Corner := [⟨⟨45, 10⟩, 7⟩, ⟨⟨44, 11⟩, 8⟩, ⟨⟨43, 10⟩, 3⟩, ⟨⟨46, 10⟩, 5⟩]

/-- Three corners not north of the target: the farthest is given up. -/
example : wrongDirection ⟨91/2, 21/2⟩ cornersUneven = [3] := by decide +kernel

example : (cornersUneven.map (·.pt)).Nodup ∧ (cornersUneven.map (·.ix)).Nodup := by decide +kernel

def cornersRows : List Corner := [⟨⟨45, 10⟩, 0⟩, ⟨⟨44, 11⟩, 1⟩, ⟨⟨46, 10⟩, 2⟩, ⟨⟨46, 11⟩, 3⟩]

example : Spec.NearestRow ⟨91/2, 21/2⟩ cornersRows (1/2) ∧ wrongGridLike ⟨91/2, 21/2⟩ cornersRows = .ok (some 1) := by
  refine ⟨⟨⟨⟨⟨45, 10⟩, 0⟩, ?_, ?_⟩, ?_⟩, ?_⟩
  all_goals decide +kernel

/-- The northern pair extends to the west, the southern one to the east. -/
def cornersSkew : List Corner := [⟨⟨45, 10⟩, 0⟩, ⟨⟨45, 11⟩, 1⟩, ⟨⟨46, 10⟩, 2⟩, ⟨⟨46, 8⟩, 3⟩]

example : Spec.NearestLon ⟨226/5, 51/5⟩ cornersSkew ⟨⟨45, 10⟩, 0⟩ := by
  refine ⟨0, rfl, ?_, fun j c hj => absurd hj (Nat.not_lt_zero _)⟩
  decide +kernel

example : Spec.NearerFirst ⟨⟨45, 10⟩, 0⟩ ⟨⟨46, 10⟩, 2⟩ ⟨⟨46, 8⟩, 3⟩ ⟨⟨46, 10⟩, 2⟩ ⟨⟨46, 8⟩, 3⟩ :=
  .inl ⟨rfl, rfl, by decide +kernel⟩

example : wrongBestGridLike ⟨226/5, 51/5⟩ cornersSkew = .ok (some (3, ⟨46, 12⟩)) := by decide +kernel

end Demo

end PyG2P
