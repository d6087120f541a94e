import Verif.Props.Bilinear

/-! # C97, C98: searches that fail or do not end -/

namespace PyG2P
open ScipyLib

/-! ## C98: the search ends -/

/-- After the shape has been accepted the search ends. -/
theorem search_checked_ends (E : Around) (rotated : Bool) (retries : Nat) (s : Search) (hi : s.Inv)
    (hc : s.checked = true) : ∃ r, search E rotated retries s = some r := by
  induction hk : retries - s.extra using Nat.strong_induction_on generalizing s with
  | _ k ih =>
    by_cases hx : s.extra < retries
    · cases hr : oneRound E rotated s with
      | error e => exact ⟨.error e, by rw [search.eq_1, if_pos hx, hr]⟩
      | ok rd =>
        rcases round_spec hi hr with ⟨s', rfl, hi', hcs⟩ | ⟨rfl, -⟩ | ⟨rfl, -⟩ | ⟨s', q, rfl, -⟩
        · rw [search_again hx hr]
          rcases hcs with ⟨h1, -⟩ | ⟨h1, h2, -⟩
          · rw [hc] at h1; cases h1
          · exact ih (retries - s'.extra) (by omega) s' hi' h1 rfl
        · exact ⟨_, by rw [search.eq_1, if_pos hx, hr]⟩
        · exact ⟨_, by rw [search.eq_1, if_pos hx, hr]⟩
        · exact ⟨_, by rw [search.eq_1, if_pos hx, hr]⟩
    · exact ⟨_, search_end hx⟩

/-- **C98 (part)**: for rotated source grids every search ends. -/
theorem bilinear_rotated_ends (bound : ℚ) (retries : Nat) (held : Option Quad) (c : BCell) (h4 : c.row.length = 4)
    (hn : (c.row.map (·.2)).Nodup) : ∃ r, bilinearCell true bound retries held c = some r := by
  unfold bilinearCell
  dsimp only
  by_cases h1 : (c.row.headD (0, 0)).1 ≤ 1 / 10000000000
  · exact ⟨_, by rw [if_pos h1]⟩
  · rw [if_neg h1]
    by_cases h2 : bound < (c.row.headD (0, 0)).1
    · exact ⟨_, by rw [if_pos h2]⟩
    · rw [if_neg h2]
      obtain ⟨r, hr⟩ := search_checked_ends c.around true (if true = true then 20 else retries)
        ⟨c.row.map (·.2), 0, true, held⟩ (start_inv h4 hn) rfl
      exact ⟨_, by rw [hr]; rfl⟩

/-- A round that does not check the shape any more, or replaces corners by further neighbours, counts; the others are
the replacement by points near another place. -/
theorem round_counts {E : Around} {rotated : Bool} {s s' : Search} (hi : s.Inv) (hb : E.beyond = false)
    (hbest : ∀ cs i p, wrongBestGridLike E.target cs ≠ .ok (some (i, p)))
    (h : oneRound E rotated s = .ok (.again s')) : s.extra < s'.extra := by
  rcases round_spec hi h with ⟨s2, h2, -, hc⟩ | ⟨h2, -⟩ | ⟨h2, -⟩ | ⟨s2, q, h2, -⟩
  · rcases hc with ⟨hc, hc', -⟩ | ⟨-, h3, -⟩
    · unfold oneRound at h
      dsimp only [bind, Except.bind] at h
      cases hcs : cornersOf E s.idx with
      | error e => rw [hcs] at h; cases h
      | ok cs =>
        rw [hcs] at h
        dsimp only at h
        by_cases hk : E.skip = true
        · rw [if_pos hk] at h; cases h
        · rw [if_neg hk, if_neg (by rw [hc]; decide)] at h
          unfold roundChecks at h
          dsimp only at h
          have hl : cs.length = 4 := by rw [← hi.1, ← (cornersOf_spec hcs).1, List.length_map]
          by_cases hw : wrongDirection E.target cs = []
          · rw [if_neg (not_not.2 hw)] at h
            obtain ⟨⟨g, hg⟩, ⟨b, hbb⟩⟩ := shape_checks_total E.target cs hl hw
            rw [hg] at h
            dsimp only [bind, Except.bind] at h
            cases g with
            | some i =>
              dsimp only at h
              cases hr : replaceIndex E [i] s.idx s.extra with
              | error e => rw [hr] at h; cases h
              | ok p =>
                obtain ⟨idx', extra'⟩ := p
                rw [hr] at h
                cases h
                have := (replaceIndex_ok hr).1
                dsimp only
                simp only [List.length_cons, List.length_nil] at this
                omega
            | none =>
              dsimp only at h
              rw [hbb] at h
              dsimp only at h
              cases b with
              | some ip => exact absurd hbb (hbest cs ip.1 ip.2)
              | none =>
                dsimp only at h
                have hn := corners_nodup hcs ((direction_check E.target cs hl).1 hw).1
                rcases roundQuad_spec hcs hi.1 hn h with ⟨s3, h3, -, -, h5, -⟩ | ⟨s3, q, h3, -⟩
                · cases h3; omega
                · cases h3
          · rw [if_pos hw, if_neg (by rw [hb]; decide)] at h
            dsimp only [bind, Except.bind] at h
            cases hr : replaceIndex E (wrongDirection E.target cs) s.idx s.extra with
            | error e => rw [hr] at h; cases h
            | ok p =>
              obtain ⟨idx', extra'⟩ := p
              rw [hr] at h
              cases h
              have := (replaceIndex_ok hr).1
              have := List.length_pos_iff.2 hw
              dsimp only
              omega
    · cases h2; omega
  · cases h2
  · cases h2
  · cases h2

/-- **C98 (part)**: the search ends for every cell within the latitudes of the source grid for which the third check
(staggered rows) never asks for another point. -/
theorem bilinear_ends_partial (E : Around) (rotated : Bool) (retries : Nat) (s : Search) (hi : s.Inv)
    (hb : E.beyond = false) (hbest : ∀ cs i p, wrongBestGridLike E.target cs ≠ .ok (some (i, p))) :
    ∃ r, search E rotated retries s = some r := by
  induction hk : retries - s.extra using Nat.strong_induction_on generalizing s with
  | _ k ih =>
    by_cases hx : s.extra < retries
    · cases hr : oneRound E rotated s with
      | error e => exact ⟨.error e, by rw [search.eq_1, if_pos hx, hr]⟩
      | ok rd =>
        rcases round_spec hi hr with ⟨s', rfl, hi', -⟩ | ⟨rfl, -⟩ | ⟨rfl, -⟩ | ⟨s', q, rfl, -⟩
        · rw [search_again hx hr]
          have := round_counts hi hb hbest hr
          exact ih (retries - s'.extra) (by omega) s' hi' rfl
        · exact ⟨_, by rw [search.eq_1, if_pos hx, hr]⟩
        · exact ⟨_, by rw [search.eq_1, if_pos hx, hr]⟩
        · exact ⟨_, by rw [search.eq_1, if_pos hx, hr]⟩
    · exact ⟨_, search_end hx⟩

/-- A round that leaves everything as it is repeats for ever. -/
theorem search_never_ends {E : Around} {rotated : Bool} {retries : Nat} {s : Search} (hx : s.extra < retries)
    (h : oneRound E rotated s = .ok (.again s)) : search E rotated retries s = none := by
  cases hs : search E rotated retries s with
  | none => rfl
  | some r =>
    exfalso
    refine search.partial_correctness E rotated retries (fun s' _ => s' ≠ s) ?_ s r hs rfl
    rintro f ih s' r' hr' rfl
    rw [if_pos hx, h] at hr'
    exact ih s' r' hr' rfl

theorem putIndex_self (idx : List Nat) (i : Nat) : putIndex idx i i = idx := by
  unfold putIndex
  rw [List.map_congr_left (g := id) (by intro j _; dsimp only [id]; split <;> simp_all), List.map_id]

/-- **C98 is violated**: if the third check rejects source point `i` and `i` is again the nearest one to the place where
the program looks for a substitute, the creation of the table never ends. -/
theorem bilinear_hangs (E : Around) (retries : Nat) (idx : List Nat) (held : Option Quad) (cs : List Corner)
    (i : Nat) (place : Pt) (hr : 0 < retries) (hc : cornersOf E idx = .ok cs) (hk : E.skip = false)
    (hw : wrongDirection E.target cs = []) (hg : wrongGridLike E.target cs = .ok none)
    (hb : wrongBestGridLike E.target cs = .ok (some (i, place))) (hnear : E.nearTo place 1 = [i]) :
    search E false retries ⟨idx, 0, false, held⟩ = none := by
  apply search_never_ends hr
  unfold oneRound
  dsimp only [bind, Except.bind]
  rw [hc]
  dsimp only
  rw [if_neg (by rw [hk]; decide), if_neg (by decide)]
  unfold roundChecks
  dsimp only
  rw [if_neg (not_not.2 hw), hg]
  dsimp only [bind, Except.bind]
  rw [hb]
  dsimp only
  have : replaceClose E [i] place idx = .ok (idx, decide (idx.dedup.length = 4)) := by
    unfold replaceClose putAll
    rw [show [i].length = 1 from rfl, hnear]
    simp only [List.zipIdx_cons, List.zipIdx_nil, List.foldlM_cons, List.foldlM_nil, List.reverse_cons, List.reverse_nil,
      List.nil_append, List.getElem?_cons_zero]
    dsimp only [bind, Except.bind, pure, Except.pure]
    rw [putIndex_self]
  rw [this]

/-! ## C97: corners of an earlier cell -/

theorem dup_wrong {E : Around} {t : Pt} {idx : List Nat} {cs : List Corner} (hc : cornersOf E idx = .ok cs)
    (hd : ¬ idx.Nodup) : wrongDirection t cs ≠ [] := by
  intro h
  unfold wrongDirection at h
  by_cases hs : sameAsEarlier cs = []
  · rw [sameAsEarlier_nil] at hs
    exact hd (corners_nodup hc hs)
  · rw [if_pos hs] at h
    exact hs h

/-- Once an index occurs twice among the four, every later round replaces both copies by one new index: the search ends
with an error or when the retries are used up, with the corners the object held before. -/
theorem duplicate_stuck (E : Around) (rotated : Bool) (retries : Nat) (s : Search) (hd : ¬ s.idx.Nodup)
    (hc : s.checked = false) (hk : E.skip = false) (hb : E.beyond = false) :
    (∃ e, search E rotated retries s = some (.error e)) ∨
    ∃ s', search E rotated retries s = some (.ok (.again s')) ∧ s'.held = s.held := by
  induction hm : retries - s.extra using Nat.strong_induction_on generalizing s with
  | _ k ih =>
    by_cases hx : s.extra < retries
    · have hround : (∃ e, oneRound E rotated s = .error e) ∨ ∃ idx extra, oneRound E rotated s = .ok (.again
          { s with idx := idx, extra := extra }) ∧ ¬ idx.Nodup ∧ s.extra < extra := by
        unfold oneRound
        dsimp only [bind, Except.bind]
        cases hcs : cornersOf E s.idx with
        | error e => exact Or.inl ⟨e, rfl⟩
        | ok cs =>
          dsimp only
          rw [if_neg (by rw [hk]; decide), if_neg (by rw [hc]; decide)]
          unfold roundChecks
          dsimp only
          rw [if_pos (dup_wrong hcs hd), if_neg (by rw [hb]; decide)]
          dsimp only [bind, Except.bind]
          cases hr : replaceIndex E (wrongDirection E.target cs) s.idx s.extra with
          | error e => exact Or.inl ⟨e, rfl⟩
          | ok p =>
            obtain ⟨idx', extra'⟩ := p
            right
            have h1 := replaceIndex_ok hr
            have := List.length_pos_iff.2 (dup_wrong (t := E.target) hcs hd)
            exact ⟨idx', extra', rfl, putAll_dup hd h1.2, by omega⟩
      rcases hround with ⟨e, he⟩ | ⟨idx, extra, hr, hd', he⟩
      · exact Or.inl ⟨e, by rw [search.eq_1, if_pos hx, he]⟩
      · rw [search_again hx hr]
        exact ih (retries - extra) (by omega) _ hd' hc rfl
    · exact Or.inr ⟨s, search_end hx, rfl⟩

/-- The cell gets what the object held before: nothing (`AttributeError`), or the corners of an earlier cell. -/
def Spec.Stale (held : Option Quad) (r : Option (Py RowOut)) : Prop :=
  (∃ e, r = some (.error e)) ∨
  ∃ q row, held = some q ∧ r = some (.ok (row, held)) ∧ row.map (·.2) = [q.1.ix, q.2.1.ix, q.2.2.1.ix, q.2.2.2.ix]

theorem stale_of_again {E : Around} {retries : Nat} {s s' : Search} {root : Quad → ℚ × ℚ}
    (h : search E false retries s = some (.ok (.again s'))) (hh : s'.held = s.held) :
    Spec.Stale s.held ((search E false retries s).map (finishRow root)) := by
  rw [h, Option.map_some]
  change Spec.Stale s.held (some (rowOf root s'.held))
  unfold rowOf
  rw [hh]
  cases s.held with
  | none => exact Or.inl ⟨_, rfl⟩
  | some q => exact Or.inr ⟨q, _, rfl, rfl, rfl⟩

/-- **C97 is violated** (substitute already in use): if the third check rejects a corner and the substitute found for it
is one of the other corners, as at the border of a source grid, the cell gets an error or the corners of an earlier
cell, however many retries there are. -/
theorem bilinear_substitute_taken (bound : ℚ) (retries : Nat) (held : Option Quad) (c : BCell)
    (hd : 1 / 10000000000 < (c.row.headD (0, 0)).1 ∧ (c.row.headD (0, 0)).1 ≤ bound) (hk : c.around.skip = false)
    (hb : c.around.beyond = false) (hr : 0 < retries) (cs : List Corner)
    (hc : cornersOf c.around (c.row.map (·.2)) = .ok cs) (hw : wrongDirection c.around.target cs = [])
    (hg : wrongGridLike c.around.target cs = .ok none) (i j : Nat) (place : Pt)
    (hbest : wrongBestGridLike c.around.target cs = .ok (some (i, place))) (hi : i ∈ c.row.map (·.2))
    (hj : j ∈ c.row.map (·.2)) (hij : i ≠ j) (hnear : c.around.nearTo place 1 = [j]) :
    Spec.Stale held (bilinearCell false bound retries held c) := by
  unfold bilinearCell
  dsimp only
  rw [if_neg (not_le.2 hd.1), if_neg (not_lt.2 hd.2)]
  have hround : oneRound c.around false ⟨c.row.map (·.2), 0, false, held⟩ =
      .ok (.again ⟨putIndex (c.row.map (·.2)) i j, 0, false, held⟩) := by
    unfold oneRound
    dsimp only [bind, Except.bind]
    rw [hc]
    dsimp only
    rw [if_neg (by rw [hk]; decide), if_neg (by decide)]
    unfold roundChecks
    dsimp only
    rw [if_neg (not_not.2 hw), hg]
    dsimp only [bind, Except.bind]
    rw [hbest]
    dsimp only
    have : replaceClose c.around [i] place (c.row.map (·.2)) = .ok (putIndex (c.row.map (·.2)) i j,
        decide ((putIndex (c.row.map (·.2)) i j).dedup.length = 4)) := by
      unfold replaceClose putAll
      rw [show [i].length = 1 from rfl, hnear]
      simp only [List.zipIdx_cons, List.zipIdx_nil, List.foldlM_cons, List.foldlM_nil, List.reverse_cons,
        List.reverse_nil, List.nil_append, List.getElem?_cons_zero]
      dsimp only [bind, Except.bind, pure, Except.pure]
    rw [this]
  have hdup : ¬ (putIndex (c.row.map (·.2)) i j).Nodup := by
    intro hn
    unfold putIndex at hn
    have := List.inj_on_of_nodup_map hn hi hj
    rw [if_pos rfl, if_neg (fun h => hij h.symm)] at this
    exact hij (this rfl)
  have hx : ∀ n : Nat, (if false = true then n else retries) = retries := fun n => by rw [if_neg (by decide)]
  rw [hx]
  have e := search_again (E := c.around) (rotated := false) (retries := retries) hr hround
  rcases duplicate_stuck c.around false retries ⟨putIndex (c.row.map (·.2)) i j, 0, false, held⟩ hdup rfl hk hb with
    ⟨er, he⟩ | ⟨s', hs', hh⟩
  · left
    exact ⟨er, by rw [e, he]; rfl⟩
  · rw [e]
    exact stale_of_again hs' hh

/-- **C97 is violated** (few target rows): the retries are the number of target rows, and every point replaced counts.
If the first check rejects as many of the four nearest points as the target has rows, the cell gets an error or the
corners of an earlier cell. -/
theorem bilinear_few_rows (bound : ℚ) (retries : Nat) (held : Option Quad) (c : BCell)
    (hd : 1 / 10000000000 < (c.row.headD (0, 0)).1 ∧ (c.row.headD (0, 0)).1 ≤ bound) (hk : c.around.skip = false)
    (hb : c.around.beyond = false) (hr : 0 < retries) (cs : List Corner)
    (hc : cornersOf c.around (c.row.map (·.2)) = .ok cs) (hw : wrongDirection c.around.target cs ≠ [])
    (hl : retries ≤ (wrongDirection c.around.target cs).length) :
    Spec.Stale held (bilinearCell false bound retries held c) := by
  unfold bilinearCell
  dsimp only
  rw [if_neg (not_le.2 hd.1), if_neg (not_lt.2 hd.2)]
  have hx : ∀ n : Nat, (if false = true then n else retries) = retries := fun n => by rw [if_neg (by decide)]
  rw [hx]
  have hround : oneRound c.around false ⟨c.row.map (·.2), 0, false, held⟩ = (do
      let (idx, extra) ← replaceIndex c.around (wrongDirection c.around.target cs) (c.row.map (·.2)) 0
      .ok (.again ⟨idx, extra, false, held⟩)) := by
    unfold oneRound
    dsimp only [bind, Except.bind]
    rw [hc]
    dsimp only
    rw [if_neg (by rw [hk]; decide), if_neg (by decide)]
    unfold roundChecks
    dsimp only
    rw [if_pos hw, if_neg (by rw [hb]; decide)]
    rfl
  cases hri : replaceIndex c.around (wrongDirection c.around.target cs) (c.row.map (·.2)) 0 with
  | error e =>
    left
    rw [hri] at hround
    exact ⟨e, by rw [search.eq_1, if_pos (show (0 : Nat) < retries from hr), hround]; rfl⟩
  | ok p =>
    obtain ⟨idx', extra'⟩ := p
    rw [hri] at hround
    have he := (replaceIndex_ok hri).1
    rw [search_again (show (0 : Nat) < retries from hr) hround]
    exact stale_of_again (s := ⟨idx', extra', false, held⟩) (search_end (by dsimp only; omega)) rfl

/-! ## Examples -/

namespace Demo

/-- A source grid of two rows, latitude 0 and 1, that does not go beyond longitude 1 in the south. -/
def bPts : List Pt := [⟨0, 0⟩, ⟨0, 1⟩, ⟨1, 0⟩, ⟨1, 9/10⟩, ⟨1, 9/5⟩]

/-- The `k` source points nearest to `p` in the plane, then the index the tree gives for missing points. -/
def bNear (pts : List Pt) (p : Pt) (k : Nat) : List Nat :=
  (((List.range pts.length).map fun i => ((((pts[i]?).getD ⟨0, 0⟩).lat - p.lat) ^ 2 + (((pts[i]?).getD ⟨0, 0⟩).lon - p.lon) ^ 2, i)).insertionSort
    (fun a b => a.1 ≤ b.1)).map (·.2) |>.take k |> fun l => l ++ List.replicate (k - pts.length) pts.length

/-- A target cell at `p`, half a unit from its nearest source point (the solver answers with the middle). -/
def bCell (pts : List Pt) (p : Pt) : BCell :=
  { around := { target := p, coord := fun i => pts[i]?, near := bNear pts p, nearTo := bNear pts
                nonConvex := fun _ _ _ _ => none, skip := false, beyond := false }
    root := fun _ => (1/2, 1/2)
    row := (bNear pts p 4).map fun i => (1/2, i) }

/-- The corners of the cell at (0.4, 0.4). -/
def bQuad : Quad := (⟨⟨0, 0⟩, 0⟩, ⟨⟨0, 1⟩, 1⟩, ⟨⟨1, 9/10⟩, 3⟩, ⟨⟨1, 0⟩, 2⟩)

end Demo

/-- The cell at (0.4, 0.4) gets the four source points around it. -/
theorem Demo.bilinear_first : bilinearCell false 1 2 none (Demo.bCell Demo.bPts ⟨2/5, 2/5⟩) =
    some (.ok ([(.fin (1/4), 0), (.fin (1/4), 1), (.fin (1/4), 3), (.fin (1/4), 2)], some Demo.bQuad)) := by
  have h : oneRound (Demo.bCell Demo.bPts ⟨2/5, 2/5⟩).around false
      ⟨(Demo.bCell Demo.bPts ⟨2/5, 2/5⟩).row.map (·.2), 0, false, none⟩ =
      .ok (.found ⟨[0, 1, 2, 3], 0, true, some Demo.bQuad⟩) := by decide +kernel
  unfold bilinearCell
  dsimp only
  rw [if_neg (by decide +kernel), if_neg (by decide +kernel), if_neg (by decide), search.eq_1, if_pos (by decide), h]
  decide +kernel

theorem Demo.bilinear_same (held : Option Quad) (n : Nat) :
    bilinearLoop 10 false 1 2 held (List.replicate n { Demo.bCell Demo.bPts ⟨0, 1⟩ with row := [(0, 1), (1/2, 0), (1/2, 3), (1, 2)] }) =
      some (.ok (List.replicate n [(1, 1), (0, 0), (0, 3), (0, 2)])) := by
  induction n with
  | zero => rfl
  | succ n ih =>
    rw [List.replicate_succ, bilinearLoop, if_neg (by decide)]
    have : bilinearCell false 1 2 held { Demo.bCell Demo.bPts ⟨0, 1⟩ with row := [(0, 1), (1/2, 0), (1/2, 3), (1, 2)] } =
        some (.ok ([(1, 1), (0, 0), (0, 3), (0, 2)], held)) := by
      unfold bilinearCell
      dsimp only
      rw [if_pos (by decide +kernel)]
      rfl
    rw [this]
    dsimp only
    rw [ih]
    rfl

/-- The hypotheses of `bilinear_table` hold for a target of 250 cells, one at (0.4, 0.4) and the others at a source
point. -/
theorem Demo.bilinear_table_case :
    (∀ c ∈ Demo.bCell Demo.bPts ⟨2/5, 2/5⟩ :: List.replicate 249 { Demo.bCell Demo.bPts ⟨0, 1⟩ with row := [(0, 1), (1/2, 0), (1/2, 3), (1, 2)] },
      c.row.length = 4 ∧ (c.row.map (·.2)).Nodup) ∧
    buildBilinear false false 1 2
        (Demo.bCell Demo.bPts ⟨2/5, 2/5⟩ :: List.replicate 249 { Demo.bCell Demo.bPts ⟨0, 1⟩ with row := [(0, 1), (1/2, 0), (1/2, 3), (1, 2)] }) =
      some (.ok ([(.fin (1/4), 0), (.fin (1/4), 1), (.fin (1/4), 3), (.fin (1/4), 2)] ::
        List.replicate 249 [(1, 1), (0, 0), (0, 3), (0, 2)])) := by
  constructor
  · intro c hc
    rcases List.mem_cons.1 hc with rfl | hc
    · decide +kernel
    · rw [List.eq_of_mem_replicate hc]
      decide +kernel
  · unfold buildBilinear
    have hs : GribLib.progressStep false (Demo.bCell Demo.bPts ⟨2/5, 2/5⟩ ::
        List.replicate 249 { Demo.bCell Demo.bPts ⟨0, 1⟩ with row := [(0, 1), (1/2, 0), (1/2, 3), (1, 2)] }).length = 10 := by
      rw [List.length_cons, List.length_replicate]
      rfl
    rw [hs, bilinearLoop, if_neg (by decide), Demo.bilinear_first]
    dsimp only
    rw [Demo.bilinear_same]

/-- **C97 is violated**: the cell at (0.4, 0.97) that comes next has the nearest source points 1, 3, 4 and 0 and lies
in the quadrilateral of 1, 3, 4 with a point that the source grid does not have. It gets weights for the points of the
cell before, 0, 1, 3 and 2. -/
theorem bilinear_stale_example :
    (Demo.bCell Demo.bPts ⟨2/5, 97/100⟩).row.map (·.2) = [1, 3, 4, 0] ∧
    bilinearCell false 1 2 (some Demo.bQuad) (Demo.bCell Demo.bPts ⟨2/5, 97/100⟩) =
      some (.ok ([(.fin (1/4), 0), (.fin (1/4), 1), (.fin (1/4), 3), (.fin (1/4), 2)], some Demo.bQuad)) ∧
    bilinearCell false 1 2 none (Demo.bCell Demo.bPts ⟨2/5, 97/100⟩) = some (.error .attributeError) := by
  have hi : (Demo.bCell Demo.bPts ⟨2/5, 97/100⟩).row.map (·.2) = [1, 3, 4, 0] := by decide +kernel
  have hs : ∀ held, held = some Demo.bQuad ∨ held = none →
      search (Demo.bCell Demo.bPts ⟨2/5, 97/100⟩).around false 2 ⟨[1, 3, 4, 0], 0, false, held⟩ =
      some (.ok (.again ⟨[5, 3, 4, 5], 2, false, held⟩)) := by
    intro held hh
    have h1 : oneRound (Demo.bCell Demo.bPts ⟨2/5, 97/100⟩).around false ⟨[1, 3, 4, 0], 0, false, held⟩ =
        .ok (.again ⟨[1, 3, 4, 1], 0, false, held⟩) := by
      rcases hh with rfl | rfl <;> decide +kernel
    have h2 : oneRound (Demo.bCell Demo.bPts ⟨2/5, 97/100⟩).around false ⟨[1, 3, 4, 1], 0, false, held⟩ =
        .ok (.again ⟨[2, 3, 4, 2], 1, false, held⟩) := by
      rcases hh with rfl | rfl <;> decide +kernel
    have h3 : oneRound (Demo.bCell Demo.bPts ⟨2/5, 97/100⟩).around false ⟨[2, 3, 4, 2], 1, false, held⟩ =
        .ok (.again ⟨[5, 3, 4, 5], 2, false, held⟩) := by
      rcases hh with rfl | rfl <;> decide +kernel
    rw [search_again (show (0 : Nat) < 2 by decide) h1, search_again (show (0 : Nat) < 2 by decide) h2,
      search_again (show (1 : Nat) < 2 by decide) h3, search_end (show ¬ (2 : Nat) < 2 by decide)]
  refine ⟨hi, ?_, ?_⟩
  · unfold bilinearCell
    dsimp only
    rw [if_neg (by decide +kernel), if_neg (by decide +kernel), if_neg (by decide), hi, hs _ (.inl rfl)]
    decide +kernel
  · unfold bilinearCell
    dsimp only
    rw [if_neg (by decide +kernel), if_neg (by decide +kernel), if_neg (by decide), hi, hs _ (.inr rfl)]
    decide +kernel

end PyG2P
