import Verif.Props.Delaunay

/-! # C111-C115: the table of mode `bilinear_delaunay` -/

namespace PyG2P
open ScipyLib TableApply

namespace Spec

/-- What lies across a longest side of triangle `T` (lengths in the plane of the triangulation): a triangle, or nothing
(`none`) at the edge of the triangulation. -/
def AcrossLongest (M : Mesh) (T : Tri) (b : Option Nat) : Prop :=
  let x := M.scaled T.v0
  let y := M.scaled T.v1
  let z := M.scaled T.v2
  (T.n0 = b ∧ dist2 x y ≤ dist2 y z ∧ dist2 x z ≤ dist2 y z) ∨
  (T.n1 = b ∧ dist2 x y ≤ dist2 x z ∧ dist2 y z ≤ dist2 x z) ∨
  (T.n2 = b ∧ dist2 x z ≤ dist2 x y ∧ dist2 y z ≤ dist2 x y)

/-- The four points are the corners of the two triangles. -/
def CornersOf (T U : Tri) (l : List Nat) : Prop :=
  l.Nodup ∧ l.length = 4 ∧ ∀ i, i ∈ l ↔ (i = T.v0 ∨ i = T.v1 ∨ i = T.v2) ∨ (i = U.v0 ∨ i = U.v1 ∨ i = U.v2)

/-- The triangles have area. -/
def Proper (M : Mesh) : Prop := ∀ T ∈ M.tris, ¬ Collinear (M.scaled T.v0) (M.scaled T.v1) (M.scaled T.v2)

end Spec

theorem unique_mem {l : List Nat} {i : Nat} : i ∈ unique l ↔ i ∈ l := by
  unfold unique
  rw [List.mem_dedup, (List.perm_insertionSort _ l).mem_iff]

theorem clockwise_length {l : List Corner} {p1 p2 p3 p4 : Corner} (h : clockwise l = some (p1, p2, p3, p4)) :
    l.length = 4 := by
  unfold clockwise at h
  have hp := (List.perm_insertionSort (fun a b : Corner => cornerKey a ≤ cornerKey b) l).length_eq
  rw [← hp]
  generalize l.insertionSort (fun a b : Corner => cornerKey a ≤ cornerKey b) = k at h
  unfold clockwiseSorted at h
  split at h
  · rfl
  · cases h

theorem quadRow_spec {M : Mesh} {root : Pt → Pt → Pt → Pt → Pt → ℚ × ℚ} {T U : Tri} {c : DCell}
    {row : List (Num × Option Nat)} (h : quadRow M root T U c = .ok row) :
    ∃ (p1 p2 p3 p4 : Corner) (w1 w2 w3 w4 : ℚ),
      clockwise ((unique (T.ids ++ U.ids)).map fun i => ⟨M.plain i, i⟩) = some (p1, p2, p3, p4) ∧
      bilinearWeights (root c.p p1.pt p2.pt p3.pt p4.pt) = (w1, w2, w3, w4) ∧
      row = [(.fin w1, some p1.ix), (.fin w2, some p2.ix), (.fin w3, some p3.ix), (.fin w4, some p4.ix)] ∧
      Spec.CornersOf T U [p1.ix, p2.ix, p3.ix, p4.ix] ∧
      (∀ p ∈ [p1, p2, p3, p4], p.pt = M.plain p.ix) := by
  unfold quadRow at h
  cases hc : clockwise ((unique (T.ids ++ U.ids)).map fun i => ⟨M.plain i, i⟩) with
  | none => rw [hc] at h; cases h
  | some x =>
    obtain ⟨p1, p2, p3, p4⟩ := x
    rw [hc] at h
    dsimp only at h
    have hl := clockwise_length hc
    obtain ⟨q1, q2, q3, q4, hq, hperm, -⟩ := corners_permuted _ hl
    rw [hc] at hq
    cases hq
    generalize hw : bilinearWeights (root c.p p1.pt p2.pt p3.pt p4.pt) = w at h
    obtain ⟨w1, w2, w3, w4⟩ := w
    cases h
    have hp2 : [p1.ix, p2.ix, p3.ix, p4.ix].Perm (unique (T.ids ++ U.ids)) := by
      have := hperm.map (·.ix)
      rw [List.map_map] at this
      have he : ((fun x : Corner => x.ix) ∘ fun i => (⟨M.plain i, i⟩ : Corner)) = id := rfl
      rw [he, List.map_id] at this
      exact this
    refine ⟨p1, p2, p3, p4, w1, w2, w3, w4, rfl, hw, rfl, ⟨?_, rfl, ?_⟩, ?_⟩
    · exact hp2.nodup_iff.2 (List.nodup_dedup _)
    · intro i
      rw [hp2.mem_iff, unique_mem]
      simp only [Tri.ids, List.cons_append, List.mem_cons, List.not_mem_nil, or_false, List.nil_append, or_assoc]
    · intro p hp
      rw [hperm.mem_iff, List.mem_map] at hp
      obtain ⟨i, -, rfl⟩ := hp
      rfl

/-- What mapping back does to an entry. -/
def BackOf (n : Nat) (orig : Option (List Nat)) (e e' : Num × Option Nat) : Prop :=
  e'.1 = e.1 ∧ (e.2 = none ↔ e'.2 = none) ∧
    ∀ i, e.2 = some i → ∃ j, e'.2 = some j ∧ (orig = none → j = i) ∧ ∀ o, orig = some o → remap n o i = .ok j

theorem remapEntry_spec {n : Nat} {orig : Option (List Nat)} {e e' : Num × Option Nat}
    (h : remapEntry n orig e = .ok e') : BackOf n orig e e' := by
  obtain ⟨w, ix⟩ := e
  unfold remapEntry at h
  cases orig with
  | none =>
    cases h
    exact ⟨rfl, Iff.rfl, fun i hi => ⟨i, hi, fun _ => rfl, fun o ho => by cases ho⟩⟩
  | some o =>
    cases ix with
    | none => cases h; exact ⟨rfl, Iff.rfl, fun i hi => by cases hi⟩
    | some i =>
      dsimp only [bind, Except.bind] at h
      cases hr : remap n o i with
      | error err => rw [hr] at h; cases h
      | ok j =>
        rw [hr] at h
        cases h
        refine ⟨rfl, ⟨fun h => (by cases h), fun h => (by cases h)⟩, fun i' hi => ?_⟩
        cases hi
        exact ⟨j, rfl, fun h => (by cases h), fun o' ho => (by cases ho; exact hr)⟩

theorem mapM_forall₂ {α β : Type} {f : α → Py β} {l : List α} {l' : List β} (h : l.mapM f = .ok l') :
    List.Forall₂ (fun a b => f a = .ok b) l l' := by
  induction l generalizing l' with
  | nil => cases h; exact List.Forall₂.nil
  | cons a l ih =>
    rw [List.mapM_cons] at h
    dsimp only [bind, Except.bind] at h
    cases ha : f a with
    | error e => rw [ha] at h; cases h
    | ok b =>
      rw [ha] at h
      dsimp only at h
      cases hr : List.mapM f l with
      | error e => rw [hr] at h; cases h
      | ok rest =>
        rw [hr] at h
        cases h
        exact List.Forall₂.cons ha (ih hr)

theorem remapRow_spec {n : Nat} {orig : Option (List Nat)} {row row' : List (Num × Option Nat)}
    (h : remapRow n orig row = .ok row') : List.Forall₂ (BackOf n orig) row row' :=
  (mapM_forall₂ h).imp fun _ _ => remapEntry_spec

theorem remapRow_none {n : Nat} {row row' : List (Num × Option Nat)} (h : remapRow n none row = .ok row') : row' = row := by
  have h1 := mapM_forall₂ h
  clear h
  induction h1 with
  | nil => rfl
  | cons h _ ih => cases h; rw [ih]

theorem delaunay_pairs {M : Mesh} {root : Pt → Pt → Pt → Pt → Pt → ℚ × ℚ} {n : Nat} {orig : Option (List Nat)}
    {cells : List DCell} {rows : List (List (Num × Option Nat))} (h : delaunayTable M root n orig cells = .ok rows) :
    ∃ P : List (Option Nat), Mutual P ∧
      (∀ a b : Nat, P[a]? = some (some b) →
        (∃ T, M.tris[a]? = some T ∧ M.favourite T = some b) ∨ (∃ T, M.tris[b]? = some T ∧ M.favourite T = some a)) ∧
      rows.length = cells.length ∧
      ∀ (i : Nat) (c : DCell) (row : List (Num × Option Nat)), cells[i]? = some c → rows[i]? = some row →
        ∃ T raw, M.rowOf c = some T ∧ remapRow n orig raw = .ok row ∧
        ((c.tri = none ∨ c.far = true) → raw = outRow T) ∧
        ∀ t, c.tri = some t → c.far = false →
          (raw = triRow4 M T c ∧ ∀ u : Nat, M.favourite T = some u → ∃ x, x ≠ t ∧ P[u]? = some (some x)) ∨
          ∃ (u : Nat) (U : Tri), P[t]? = some (some u) ∧ M.tris[u]? = some U ∧ quadRow M root T U c = .ok raw := by
  unfold delaunayTable at h
  dsimp only [bind, Except.bind] at h
  cases hl : cellLoop M root (List.replicate (M.slots cells) none) cells with
  | error e => rw [hl] at h; cases h
  | ok raws =>
    rw [hl] at h
    dsimp only at h
    have h0 : ∀ a b : Nat, (List.replicate (M.slots cells) (none : Option Nat))[a]? ≠ some (some b) := by
      intro a b hab
      have := List.mem_of_getElem? hab
      rw [List.mem_replicate] at this
      cases this.2
    obtain ⟨P, q1, -, q3, q4, q5⟩ := cellLoop_pairs hl (fun a b hab => absurd hab (h0 a b))
    have hf := mapM_forall₂ h
    refine ⟨P, q1, fun a b hab => (q3 a b hab).resolve_left (h0 a b), ?_, ?_⟩
    · rw [← hf.length_eq, q4]
    · intro i c row hc hrow
      have hi : i < rows.length := (List.getElem?_eq_some_iff.1 hrow).1
      have hi' : i < raws.length := by rw [hf.length_eq]; exact hi
      have hr : raws[i]? = some raws[i] := List.getElem?_eq_getElem hi'
      obtain ⟨T, t1, t2, t3⟩ := q5 i c raws[i] hc hr
      refine ⟨T, raws[i], t1, ?_, t2, t3⟩
      have := (List.forall₂_iff_get.1 hf).2 i hi' hi
      rw [List.getElem?_eq_getElem hi] at hrow
      cases hrow
      exact this

theorem favourite_longest {M : Mesh} {T : Tri} {b : Option Nat}
    (hp : ¬ Spec.Collinear (M.scaled T.v0) (M.scaled T.v1) (M.scaled T.v2)) (h : M.favourite T = b) :
    Spec.AcrossLongest M T b := by
  unfold Mesh.favourite at h
  unfold Spec.AcrossLongest
  rcases longest_side _ _ _ hp with ⟨hw, k⟩ | ⟨hw, k⟩ | ⟨hw, k⟩ <;> rw [hw] at h
  · exact Or.inl ⟨h, k⟩
  · exact Or.inr (Or.inl ⟨h, k⟩)
  · exact Or.inr (Or.inr ⟨h, k⟩)

/-- **C111** (source grids that are not global). One pairing of the triangles explains the source points of all cells.
Partners are mutual, and one of two partners lies across a longest side of the other. A cell in a triangle uses either
the three corners of its triangle and the index -1, and then the triangle across the longest side (the favourite) is
missing or the partner of another triangle, or the four corners of its triangle and its partner. -/
theorem delaunay_quads (M : Mesh) (hM : Spec.Proper M) (root : Pt → Pt → Pt → Pt → Pt → ℚ × ℚ) (n : Nat)
    (cells : List DCell) (rows : List (List (Num × Option Nat))) (h : delaunayTable M root n none cells = .ok rows) :
    rows.length = cells.length ∧
    ∃ P : Nat → Option Nat,
      (∀ a b, P a = some b → P b = some a) ∧
      (∀ a b, P a = some b → (∃ T, M.tris[a]? = some T ∧ Spec.AcrossLongest M T (some b)) ∨
        ∃ T, M.tris[b]? = some T ∧ Spec.AcrossLongest M T (some a)) ∧
      ∀ (i t : Nat) (c : DCell) (T : Tri) (row : List (Num × Option Nat)), cells[i]? = some c → rows[i]? = some row →
        c.tri = some t → M.tris[t]? = some T → c.far = false →
        (row.map (·.2) = [some T.v0, some T.v1, some T.v2, none] ∧
          (Spec.AcrossLongest M T none ∨ ∃ u x, Spec.AcrossLongest M T (some u) ∧ P u = some x ∧ x ≠ t)) ∨
        ∃ u U ids, P t = some u ∧ M.tris[u]? = some U ∧ row.map (·.2) = ids.map some ∧ Spec.CornersOf T U ids := by
  obtain ⟨P, q1, q2, q3, q4⟩ := delaunay_pairs h
  refine ⟨q3, fun a => (P[a]?).getD none, ?_, ?_, ?_⟩
  · intro a b hab
    have : P[a]? = some (some b) := by
      dsimp only at hab
      cases hp : P[a]? with
      | none => rw [hp] at hab; cases hab
      | some x => rw [hp] at hab; cases hab; rfl
    dsimp only
    rw [q1 a b this]
    rfl
  · intro a b hab
    have : P[a]? = some (some b) := by
      dsimp only at hab
      cases hp : P[a]? with
      | none => rw [hp] at hab; cases hab
      | some x => rw [hp] at hab; cases hab; rfl
    rcases q2 a b this with ⟨T, hT, hf⟩ | ⟨T, hT, hf⟩
    · exact Or.inl ⟨T, hT, favourite_longest (hM T (List.mem_of_getElem? hT)) hf⟩
    · exact Or.inr ⟨T, hT, favourite_longest (hM T (List.mem_of_getElem? hT)) hf⟩
  · intro i t c T row hc hrow ht hT hf
    obtain ⟨T', raw, h1, h2, -, h4⟩ := q4 i c row hc hrow
    have : T' = T := by
      unfold Mesh.rowOf at h1
      rw [ht] at h1
      dsimp only at h1
      rw [hT] at h1
      cases h1; rfl
    subst this
    obtain rfl := remapRow_none h2
    have hcol := hM T' (List.mem_of_getElem? hT)
    rcases h4 t ht hf with ⟨hrw, hfav⟩ | ⟨u, U, hu, hU, hq⟩
    · left
      constructor
      · rw [hrw]
        unfold triRow4
        split <;> rfl
      · cases hv : M.favourite T' with
        | none => exact Or.inl (favourite_longest hcol hv)
        | some u =>
          right
          obtain ⟨x, hx, hx'⟩ := hfav u hv
          exact ⟨u, x, favourite_longest hcol hv, by dsimp only; rw [hx']; rfl, hx⟩
    · right
      obtain ⟨p1, p2, p3, p4, w1, w2, w3, w4, -, -, hrow', hco, -⟩ := quadRow_spec hq
      refine ⟨u, U, [p1.ix, p2.ix, p3.ix, p4.ix], ?_, hU, ?_, hco⟩
      · dsimp only; rw [hu]; rfl
      · rw [hrow']; rfl

end PyG2P
