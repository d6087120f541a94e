import Verif.Props.AverageZero

/-! # Tables computed in pieces, in whole commands — interpolation/scipy_interpolation_lib.py 572-612

The number of pieces is `@num_of_splits` of the command file. -/

namespace PyG2P
open ArgParse CommandRun Store Spec Converter Aggregator
variable {n k : Nat}

namespace Spec

/-- A table can be computed in these pieces. (The methods of the GRIB library never use pieces.) Inverse distances: at
least one piece, not more than rows, and four neighbours for every cell. Triangles: large pieces. One neighbour: one
piece. -/
def CanSplit (rows : List (List (Fin k))) (splits : Option Nat) : Method k → Prop
  | .nearest .. => splits = none
  | .invdist _ src query => (∀ s, splits = some s → 0 < s ∧ s ≤ rows.length) ∧ 4 ≤ src.length ∧ ∀ c, (query c).length = 4
  | .triangulation .. => LargePieces rows splits
  | .gribNearest .. => True
  | .gribInvdist .. => True

end Spec

/-- **C184.** The table computed in pieces is the table computed in one. -/
theorem split_table (rows : List (List (Fin k))) (splits : Option Nat) (method : Method k)
    (h : CanSplit rows splits method) : method.build splits rows = method.build none rows := by
  cases method with
  | nearest =>
    rw [show splits = none from h]
  | invdist nj src query =>
    obtain ⟨h1, h2, h3⟩ := h
    cases splits with
    | none => rfl
    | some s =>
      unfold Method.build
      dsimp only
      rw [splits_invdist_partial src.length 4 s _ query h3 h2 rows (h1 s rfl).1 (h1 s rfl).2]
  | triangulation tty nj src pts last cell => exact triangulation_pieces tty nj src pts last cell splits rows h
  | gribNearest => rfl
  | gribInvdist => rfl

theorem split_lookup (rows : List (List (Fin k))) (splits : Option Nat) (method : Method k)
    (h : CanSplit rows splits method) (run : TblRun) : method.lookup splits rows run = method.lookup none rows run := by
  unfold Method.lookup
  rw [split_table rows splits method h]

/-- **C184.** A command whose file asks for pieces ends in the same way, writes the same maps and leaves the same tables as the
one whose file does not. -/
theorem split_command (le : Str → Str → Bool) (ne : NumExpr) (s : Site n k) (ts : TableSite k) (w : Store (Table k))
    (items items' : List (Written × Str × JVal)) (r : Request) (a : TableReq) (hcom : Command s items r)
    (hcom' : Command s items' r) (hask : TableAsked s ts items a) (hask' : TableAsked s ts items' { a with splits := none })
    (hfmt : r.format = "pcraster".toList)
    (hs : CanSplit (ts.rows r.latMap) a.splits (ts.method a.parallel r.mode r.latMap r.lonMap r.input)) :
    runIn le ne s ts w (argv items) = runIn le ne s ts w (argv items') := by
  rw [table_core le ne s ts w items r hcom a hask hfmt, table_core le ne s ts w items' r hcom' _ hask' hfmt]
  have : qOf s ts r a = qOf s ts r { a with splits := none } := split_lookup _ _ _ hs _
  rw [this]

/-- **C184.** The same with netCDF output. -/
theorem split_command_netcdf (le : Str → Str → Bool) (ne : NumExpr) (s : Site n k) (ts : TableSite k)
    (w : Store (Table k)) (items items' : List (Written × Str × JVal)) (r : Request) (a : TableReq)
    (hcom : Command s items r) (hcom' : Command s items' r) (hask : TableAsked s ts items a)
    (hask' : TableAsked s ts items' { a with splits := none }) (hfmt : r.format ≠ "pcraster".toList) (o : NcOut)
    (hnc : NcCommand s items r o) (hnc' : NcCommand s items' r o)
    (hs : CanSplit (ts.rows r.latMap) a.splits (ts.method a.parallel r.mode r.latMap r.lonMap r.input)) :
    runIn le ne s ts w (argv items) = runIn le ne s ts w (argv items') := by
  rw [table_core_nc le ne s ts w items r hcom a hask hfmt o hnc,
    table_core_nc le ne s ts w items' r hcom' _ hask' hfmt o hnc']
  have : qOf s ts r a = qOf s ts r { a with splits := none } := split_lookup _ _ _ hs _
  rw [this]

/-- **C184.** Two input files. -/
theorem split_command_two (le : Str → Str → Bool) (ne : NumExpr) (s : Site n k) (ts : TableSite k)
    (w : Store (Table k)) (items items' : List (Written × Str × JVal)) (r : Request) (input2 : Str) (a : TableReq)
    (hcom : TwoFileCommand s items r input2) (hcom' : TwoFileCommand s items' r input2) (hask : TableAsked s ts items a)
    (hask' : TableAsked s ts items' { a with splits := none }) (hfmt : r.format = "pcraster".toList)
    (hs : CanSplit (ts.rows r.latMap) a.splits (ts.method a.parallel r.mode r.latMap r.lonMap r.input))
    (hs2 : CanSplit (ts.rows r.latMap) a.splits (ts.method a.parallel r.mode r.latMap r.lonMap input2)) :
    runIn le ne s ts w (argv items) = runIn le ne s ts w (argv items') := by
  rw [table_core_two le ne s ts w items r input2 hcom a hask hfmt,
    table_core_two le ne s ts w items' r input2 hcom' _ hask' hfmt]
  have : qOf s ts r a = qOf s ts r { a with splits := none } := split_lookup _ _ _ hs _
  rw [this]
  have : qOf2 s ts r input2 a = qOf2 s ts r input2 { a with splits := none } := split_lookup _ _ _ hs2 _
  rw [this]

/-- **C184.** Two input files, netCDF output. -/
theorem split_command_netcdf_two (le : Str → Str → Bool) (ne : NumExpr) (s : Site n k) (ts : TableSite k)
    (w : Store (Table k)) (items items' : List (Written × Str × JVal)) (r : Request) (input2 : Str) (a : TableReq)
    (hcom : TwoFileCommand s items r input2) (hcom' : TwoFileCommand s items' r input2) (hask : TableAsked s ts items a)
    (hask' : TableAsked s ts items' { a with splits := none }) (hfmt : r.format ≠ "pcraster".toList) (o : NcOut)
    (hnc : NcCommand s items r o) (hnc' : NcCommand s items' r o)
    (hs : CanSplit (ts.rows r.latMap) a.splits (ts.method a.parallel r.mode r.latMap r.lonMap r.input))
    (hs2 : CanSplit (ts.rows r.latMap) a.splits (ts.method a.parallel r.mode r.latMap r.lonMap input2)) :
    runIn le ne s ts w (argv items) = runIn le ne s ts w (argv items') := by
  rw [table_core_nc_two le ne s ts w items r input2 hcom a hask hfmt o hnc,
    table_core_nc_two le ne s ts w items' r input2 hcom' _ hask' hfmt o hnc']
  have : qOf s ts r a = qOf s ts r { a with splits := none } := split_lookup _ _ _ hs _
  rw [this]
  have : qOf2 s ts r input2 a = qOf2 s ts r input2 { a with splits := none } := split_lookup _ _ _ hs2 _
  rw [this]

/-! ## Where the pieces fail -/

/-- A loop in which every piece is computed or fails with `e`, and one fails. -/
theorem splitLoop_fails {τ W : Type} (nnear size : Nat) (f : List (List τ) → Py (ScipyLib.Part W)) (grid : List (List τ))
    (e : PyErr) : ∀ starts : List Nat,
      (∀ i ∈ starts, f ((grid.drop i).take size) = .error e ∨ ∃ rows, f ((grid.drop i).take size) = .ok (.table rows) ∧
        rows.length = ((grid.drop i).take size).flatten.length ∧ ∀ r ∈ rows, r.length = nnear) →
      (∃ i ∈ starts, f ((grid.drop i).take size) = .error e) →
      ScipyLib.splitLoop nnear size f grid starts = .error e := by
  intro starts
  induction starts with
  | nil =>
    intro _ h
    obtain ⟨i, hi, -⟩ := h
    cases hi
  | cons i is ih =>
    intro hall hex
    unfold ScipyLib.splitLoop
    dsimp only
    rcases hall i List.mem_cons_self with he | ⟨rows, hr, hl, hn⟩
    · rw [he]; rfl
    · have hex' : ∃ i ∈ is, f ((grid.drop i).take size) = .error e := by
        obtain ⟨j, hj, hje⟩ := hex
        rcases List.mem_cons.1 hj with rfl | hj
        · rw [hr] at hje; cases hje
        · exact ⟨j, hj, hje⟩
      rw [hr]
      show (ScipyLib.assign nnear ((grid.drop i).take size).flatten.length (.table rows) >>= fun rows =>
        ScipyLib.splitLoop nnear size f grid is >>= fun rest => Except.ok (rows ++ rest)) = _
      rw [ih (fun j hj => hall j (List.mem_cons_of_mem _ hj)) hex']
      unfold ScipyLib.assign
      dsimp only
      rw [if_pos ⟨hl, hn⟩]
      rfl

/-- **C184 is violated** for triangles: if one piece has less than 250 cells (but some), the table that can be computed in one
piece cannot be computed in these. -/
theorem triangulation_small_piece (tty : Bool) (nj : Nat) (src : List ScipyLib.Nbrs) (pts : List ScipyLib.Pt)
    (last : Nat × Nat × Nat) (cell : Fin k → ScipyLib.TriCell) (rows : List (List (Fin k))) (t : Table k)
    (hone : (Method.triangulation tty nj src pts last cell).build none rows = .ok t) (s : Nat) (h0 : 0 < s)
    (hs : s ≤ rows.length) (first : Nat) (hd : rows.length / s ∣ first) (hf : first < rows.length)
    (hc : 0 < ((rows.drop first).take (rows.length / s)).flatten.length)
    (hsmall : ((rows.drop first).take (rows.length / s)).flatten.length < 250) :
    (Method.triangulation tty nj src pts last cell).build (some s) rows = .error .zeroDivision := by
  have hdiv : 0 < rows.length / s := Nat.div_pos hs h0
  unfold Method.build at hone ⊢
  dsimp only at hone ⊢
  generalize ScipyLib.minUpperBound nj src = bound at hone ⊢
  -- what computing in one piece says
  have hpart : ∃ p, ScipyLib.triPart tty bound pts last cell rows = .ok p := by
    cases hp : ScipyLib.triPart tty bound pts last cell rows with
    | error e =>
      unfold ScipyLib.interpolate at hone
      dsimp only at hone
      rw [hp] at hone
      cases hone
    | ok p => exact ⟨p, rfl⟩
  obtain ⟨p, hp⟩ := hpart
  have hrow : (∃ g, ScipyLib.triSource pts = .ok g) ∧ ∀ c ∈ rows.flatten, ∃ r, triCellRow bound pts last cell c = .ok r := by
    unfold ScipyLib.triPart at hp
    obtain ⟨⟨global, ext⟩, hsrc, hp⟩ := bind_ok_iff.1 hp
    refine ⟨⟨_, hsrc⟩, fun c hc => ?_⟩
    dsimp only at hp
    split at hp
    · cases hp
    · obtain ⟨out, hm, -⟩ := bind_ok_iff.1 hp
      rw [List.mapM_map] at hm
      obtain ⟨i, hi⟩ := List.getElem?_of_mem hc
      obtain ⟨hl, hget⟩ := mapM_get _ _ _ hm
      have hi' : i < out.length := by rw [hl]; exact (List.getElem?_eq_some_iff.1 hi).1
      have hr := hget i c out[i] hi (List.getElem?_eq_getElem hi')
      refine ⟨out[i], ?_⟩
      unfold triCellRow
      rw [hsrc]
      exact hr
  obtain ⟨⟨⟨global, ext⟩, hsrc⟩, hrow⟩ := hrow
  have hsub : ∀ i, ∀ c ∈ ((rows.drop i).take (rows.length / s)).flatten, c ∈ rows.flatten := by
    intro i c hc
    obtain ⟨l, hl, hcl⟩ := List.mem_flatten.1 hc
    exact List.mem_flatten.2 ⟨l, List.mem_of_mem_drop (List.mem_of_mem_take hl), hcl⟩
  have hblock : ∀ i, (0 < ((rows.drop i).take (rows.length / s)).flatten.length →
      ((rows.drop i).take (rows.length / s)).flatten.length < 250 →
      ScipyLib.triPart tty bound pts last cell ((rows.drop i).take (rows.length / s)) = .error .zeroDivision) ∧
      (¬ (0 < ((rows.drop i).take (rows.length / s)).flatten.length ∧
        ((rows.drop i).take (rows.length / s)).flatten.length < 250) →
      ∃ out, ScipyLib.triPart tty bound pts last cell ((rows.drop i).take (rows.length / s)) = .ok (.table out) ∧
        out.length = ((rows.drop i).take (rows.length / s)).flatten.length ∧ ∀ r ∈ out, r.length = 3) := by
    intro i
    constructor
    · intro h1 h2
      unfold ScipyLib.triPart
      rw [hsrc, ok_bind]
      dsimp only
      rw [if_pos]
      refine ⟨?_, ?_⟩
      · rw [List.length_map]
        unfold GribLib.progressStep
        rw [Nat.div_eq_of_lt h2]
        split_ifs <;> rfl
      · intro h
        rw [List.map_eq_nil_iff] at h
        rw [h] at h1
        exact absurd h1 (lt_irrefl _)
    · intro h
      by_cases h2 : 250 ≤ ((rows.drop i).take (rows.length / s)).flatten.length
      · obtain ⟨out, hout⟩ := mapM_some_ok (triCellRow bound pts last cell) _ fun c hc => hrow c (hsub i c hc)
        refine ⟨out, ?_, ?_⟩
        · rw [tri_part tty bound pts last cell _ h2, hout]
          rfl
        · obtain ⟨h3, h4⟩ := mapM_each _ _ _ hout
          refine ⟨h3, fun r hr => ?_⟩
          obtain ⟨c, hc⟩ := h4 r hr
          unfold triCellRow at hc
          rw [hsrc] at hc
          exact tri_row_length hc
      · have h3 : ((rows.drop i).take (rows.length / s)).flatten = [] := by
          rw [← List.length_eq_zero_iff]
          omega
        refine ⟨[], ?_, by rw [h3]; rfl, fun r hr => absurd hr (by simp)⟩
        unfold ScipyLib.triPart
        rw [hsrc, ok_bind, h3]
        dsimp only
        rw [if_neg (fun h => h.2 rfl)]
        rfl
  unfold ScipyLib.interpolate
  dsimp only
  rw [if_neg (by omega), if_neg (by omega), splitLoop_fails 3 (rows.length / s) _ rows .zeroDivision]
  · rfl
  · intro i _
    by_cases h : 0 < ((rows.drop i).take (rows.length / s)).flatten.length ∧
        ((rows.drop i).take (rows.length / s)).flatten.length < 250
    · exact .inl ((hblock i).1 h.1 h.2)
    · exact .inr ((hblock i).2 h)
  · obtain ⟨j, rfl⟩ := hd
    refine ⟨rows.length / s * j, ?_, (hblock _).1 hc hsmall⟩
    rw [List.mem_map]
    refine ⟨j, ?_, Nat.mul_comm _ _⟩
    rw [List.mem_range]
    have h1 := Nat.div_add_mod (rows.length + rows.length / s - 1) (rows.length / s)
    have h2 := Nat.mod_lt (rows.length + rows.length / s - 1) hdiv
    by_contra hge
    have h3 : rows.length / s * ((rows.length + rows.length / s - 1) / (rows.length / s)) ≤ rows.length / s * j :=
      Nat.mul_le_mul_left _ (by omega)
    omega

/-- A command whose table cannot be computed. -/
theorem unbuilt_command (le : Str → Str → Bool) (ne : NumExpr) (s : Site n k) (ts : TableSite k) (w : Store (Table k))
    (items : List (Written × Str × JVal)) (r : Request) (hcom : Command s items r) (hfmt : r.format = "pcraster".toList)
    (a : TableReq) (hask : TableAsked s ts items a) (hnew : NoTable w ts r) (hcan : CanCreate w s ts a) (t : Table k)
    (files : List (Str × (Fin k → Num)))
    (hrun : CommandRun.run ne (withTable s t) (argv items) = .ended (.ok 0) files) (hne : files ≠ []) (e : PyErr)
    (hb : (ts.method a.parallel r.mode r.latMap r.lonMap r.input).build a.splits (ts.rows r.latMap) = .error e) :
    runIn le ne s ts w (argv items) = (.ended (failure e) [], w) :=
  pcr_fails le ne s ts w items r hcom hfmt a hask t files hrun hne e
    (build_fails le w (qOf s ts r a) (may_create hcom.acceptable hnew hcan) e hb)

/-- **C184 is violated** with `nearest`. A command that would write maps if its table were there, when no table is registered
and one can be created, ends with an uncaught `ValueError` or `ZeroDivisionError` whatever the number of pieces (also one),
writes nothing and leaves the tables as they are. -/
theorem split_nearest_command (le : Str → Str → Bool) (ne : NumExpr) (s : Site n k) (ts : TableSite k)
    (w : Store (Table k)) (items : List (Written × Str × JVal)) (r : Request) (hcom : Command s items r)
    (hfmt : r.format = "pcraster".toList) (a : TableReq) (hask : TableAsked s ts items a) (hnew : NoTable w ts r)
    (hcan : CanCreate w s ts a) (t : Table k) (files : List (Str × (Fin k → Num)))
    (hrun : CommandRun.run ne (withTable s t) (argv items) = .ended (.ok 0) files) (hne : files ≠ [])
    (tty : Bool) (nj : Nat) (src : List ScipyLib.Nbrs) (query : Fin k → ℚ × Nat)
    (hm : ts.method a.parallel r.mode r.latMap r.lonMap r.input = .nearest tty nj src query)
    (pieces : Nat) (hp : a.splits = some pieces) (hrows : ∀ row ∈ ts.rows r.latMap, row ≠ []) :
    ∃ e, (e = .valueError ∨ e = .zeroDivision) ∧ runIn le ne s ts w (argv items) = (.ended (.error e) [], w) := by
  obtain ⟨e, he, hb⟩ := splits_nearest_fail tty src.length pieces (ScipyLib.minUpperBound nj src) query
    (ts.rows r.latMap) hrows
  refine ⟨e, he, ?_⟩
  have := unbuilt_command le ne s ts w items r hcom hfmt a hask hnew hcan t files hrun hne e (by
    rw [hm, hp]
    unfold Method.build
    dsimp only
    rw [hb]
    rfl)
  rw [this]
  rcases he with rfl | rfl <;> rfl

/-- **C184 is violated** with more pieces than rows of the target, or with 0 pieces. -/
theorem split_many_command (le : Str → Str → Bool) (ne : NumExpr) (s : Site n k) (ts : TableSite k)
    (w : Store (Table k)) (items : List (Written × Str × JVal)) (r : Request) (hcom : Command s items r)
    (hfmt : r.format = "pcraster".toList) (a : TableReq) (hask : TableAsked s ts items a) (hnew : NoTable w ts r)
    (hcan : CanCreate w s ts a) (t : Table k) (files : List (Str × (Fin k → Num)))
    (hrun : CommandRun.run ne (withTable s t) (argv items) = .ended (.ok 0) files) (hne : files ≠ [])
    (hm : (∃ tty nj src query, ts.method a.parallel r.mode r.latMap r.lonMap r.input = .nearest tty nj src query) ∨
      (∃ nj src query, ts.method a.parallel r.mode r.latMap r.lonMap r.input = .invdist nj src query) ∨
      ∃ tty nj src pts last cell,
        ts.method a.parallel r.mode r.latMap r.lonMap r.input = .triangulation tty nj src pts last cell)
    (pieces : Nat) (hp : a.splits = some pieces) :
    (pieces = 0 → runIn le ne s ts w (argv items) = (.ended (.error .zeroDivision) [], w)) ∧
    ((ts.rows r.latMap).length < pieces → runIn le ne s ts w (argv items) = (.ended (.error .valueError) [], w)) := by
  constructor
  · rintro rfl
    refine (unbuilt_command le ne s ts w items r hcom hfmt a hask hnew hcan t files hrun hne .zeroDivision ?_).trans rfl
    rw [hp]
    rcases hm with ⟨tty, nj, src, query, h⟩ | ⟨nj, src, query, h⟩ | ⟨tty, nj, src, pts, last, cell, h⟩ <;> rw [h] <;> rfl
  · intro hlt
    refine (unbuilt_command le ne s ts w items r hcom hfmt a hask hnew hcan t files hrun hne .valueError ?_).trans rfl
    rw [hp]
    rcases hm with ⟨tty, nj, src, query, h⟩ | ⟨nj, src, query, h⟩ | ⟨tty, nj, src, pts, last, cell, h⟩ <;> rw [h] <;>
      unfold Method.build <;> dsimp only <;> rw [splits_too_many _ _ _ _ hlt] <;> rfl

/-- **C184 is violated** with `triangulation` when one piece has some cells, but less than 250. -/
theorem split_small_command (le : Str → Str → Bool) (ne : NumExpr) (s : Site n k) (ts : TableSite k)
    (w : Store (Table k)) (items : List (Written × Str × JVal)) (r : Request) (hcom : Command s items r)
    (hfmt : r.format = "pcraster".toList) (a : TableReq) (hask : TableAsked s ts items a) (hnew : NoTable w ts r)
    (hcan : CanCreate w s ts a) (t : Table k) (files : List (Str × (Fin k → Num)))
    (hrun : CommandRun.run ne (withTable s t) (argv items) = .ended (.ok 0) files) (hne : files ≠ [])
    (tty : Bool) (nj : Nat) (src : List ScipyLib.Nbrs) (pts : List ScipyLib.Pt) (last : Nat × Nat × Nat)
    (cell : Fin k → ScipyLib.TriCell)
    (hm : ts.method a.parallel r.mode r.latMap r.lonMap r.input = .triangulation tty nj src pts last cell)
    (t1 : Table k) (hone : (Method.triangulation tty nj src pts last cell).build none (ts.rows r.latMap) = .ok t1)
    (pieces : Nat) (hp : a.splits = some pieces) (h0 : 0 < pieces) (hs : pieces ≤ (ts.rows r.latMap).length) (first : Nat)
    (hd : (ts.rows r.latMap).length / pieces ∣ first) (hf : first < (ts.rows r.latMap).length)
    (hc : 0 < (((ts.rows r.latMap).drop first).take ((ts.rows r.latMap).length / pieces)).flatten.length)
    (hsmall : (((ts.rows r.latMap).drop first).take ((ts.rows r.latMap).length / pieces)).flatten.length < 250) :
    runIn le ne s ts w (argv items) = (.ended (.error .zeroDivision) [], w) := by
  refine (unbuilt_command le ne s ts w items r hcom hfmt a hask hnew hcan t files hrun hne .zeroDivision ?_).trans rfl
  rw [hm, hp]
  exact triangulation_small_piece tty nj src pts last cell _ t1 hone pieces h0 hs first hd hf hc hsmall

namespace Demo

/-- One large piece. -/
theorem one_large : LargePieces [List.finRange 250] (some 1) := by
  refine ⟨by decide, by decide, fun first _ hf => ?_⟩
  have hf : first < 1 := hf
  obtain rfl : first = 0 := by omega
  decide +kernel

example : squareMethod.build (some 1) [List.finRange 250] = squareMethod.build none [List.finRange 250] :=
  split_table _ _ _ one_large

/-- 25 rows of 10 cells. -/
def tenths : List (List (Fin 250)) := (List.range 25).map fun i => ((List.finRange 250).drop (10 * i)).take 10

/-- The square cannot be computed in two pieces of 12 rows and one of 1. -/
example : squareMethod.build (some 2) tenths = .error .zeroDivision := by
  have h : (squareMethod.build none tenths).toOption.isSome = true := by decide +kernel
  cases hb : squareMethod.build none tenths with
  | error e => rw [hb] at h; cases h
  | ok t =>
    exact triangulation_small_piece _ _ _ _ _ _ _ t hb 2 (by decide) (by decide) 0 (by decide) (by decide)
      (by decide +kernel) (by decide +kernel)

/-- a second command file. -/
def secondSite (s : Site 2 250) : Site 2 250 :=
  { s with fs := { s.fs with isFile := fun p => decide (p = "/w/two.json".toList) || s.fs.isFile p } }

/-- the command with the second file. -/
def secondItems : List (Spec.Written × Str × JVal) :=
  makeItems ++ [(.apart "-c".toList "/w/two.json".toList, "commandsFile".toList, .str "/w/two.json".toList)]

/-- four neighbours of every cell. -/
def fourMethod : Method 250 := .invdist 2 (farSrc ++ farSrc) fun _ => [(0, 1), (1, 0), (2, 0), (3, 1)]

/-- the first file asks for two pieces, the second one for none. -/
def fourTables : TableSite 250 :=
  { cellTables with
    method := fun _ _ _ _ _ => fourMethod
    splits := fun p => if p = "/w/two.json".toList then none else some 2
    rows := fun _ => [(List.finRange 250).take 125, (List.finRange 250).drop 125] }

theorem four_split : CanSplit [(List.finRange 250).take 125, (List.finRange 250).drop 125] (some 2) fourMethod :=
  ⟨fun s hs => by obtain rfl := Option.some.inj hs; decide, by decide, fun _ => rfl⟩

theorem second_site {s : Site 2 250} {items : List (Spec.Written × Str × JVal)} {r : Spec.Request}
    (h : Spec.Command s items r) : Spec.Command (secondSite s) items r where
  written := h.written
  cwd := h.cwd
  file := by
    obtain ⟨cmd, h1, h2, h3⟩ := h.file
    exact ⟨cmd, h1, Bool.or_eq_true_iff.2 (.inr h2), { h3 with }⟩
  run := h.run
  acceptable := by
    have h' := h.acceptable
    exact {
      input := ⟨h'.input.1, Bool.or_eq_true_iff.2 (.inr h'.input.2)⟩
      maps := ⟨Bool.or_eq_true_iff.2 (.inr h'.maps.1), Bool.or_eq_true_iff.2 (.inr h'.maps.2.1),
        Bool.or_eq_true_iff.2 (.inr h'.maps.2.2)⟩
      mode := h'.mode
      folder := h'.folder
      window := h'.window
      dem := fun f g d hc => ⟨(h'.dem f g d hc).1, Bool.or_eq_true_iff.2 (.inr (h'.dem f g d hc).2)⟩ }

/-- the same command with the second file. -/
theorem second_items {s : Site 2 250} {r : Spec.Request} (cmd0 : CmdFile) (hs : s.commands = fun _ => cmd0)
    (h : Spec.Command (secondSite s) makeItems r) : Spec.Command (secondSite s) secondItems r where
  written := by
    intro q hq
    rcases List.mem_append.1 hq with hq | hq
    · exact h.written q hq
    · rw [List.mem_singleton] at hq
      subst hq
      exact ⟨("-c", "--commandsFile", .text), by unfold Spec.valued; simp, Or.inl rfl, by decide, rfl, Or.inl (by decide)⟩
  cwd := h.cwd
  file := by
    obtain ⟨cmd, h1, h2, h3⟩ := h.file
    have hc : ∀ p, (secondSite s).commands p = cmd0 := fun p => by
      show s.commands p = _
      rw [hs]
    rw [hc] at h3
    refine ⟨"/w/two.json".toList, ⟨makeItems, _, [], rfl, by intro q hq; cases hq⟩,
      (show (decide ("/w/two.json".toList = "/w/two.json".toList) || s.fs.isFile "/w/two.json".toList) = true from
        Bool.or_eq_true_iff.2 (.inl (by decide))), ?_⟩
    rw [hc]
    exact { h3 with
      input := last_append h3.input (by decide)
      outDir := typed_append h3.outDir (by decide)
      tstart := chosen_append h3.tstart (by decide)
      tend := chosen_append h3.tend (by decide)
      dataTime := chosen_append h3.dataTime (by decide)
      dataDate := chosen_append h3.dataDate (by decide)
      member := typed_append h3.member (by decide)
      namePrefix := chosen_append h3.namePrefix (by decide)
      fmap := chosen_append h3.fmap (by decide)
      ext := chosen_append h3.ext (by decide)
      format := chosen_append h3.format (by decide) }
  run := ⟨absent_append h.run.1 (by decide), absent_append h.run.2.1 (by decide), absent_append h.run.2.2 (by decide)⟩
  acceptable := h.acceptable

theorem first_file_name {x : Str} (h : Spec.LastGiven makeItems "commandsFile".toList (.str x)) : x = "./cmd.json".toList := by
  obtain ⟨pre, w, post, he, -⟩ := h
  have hm : (w, "commandsFile".toList, JVal.str x) ∈ makeItems := by rw [he]; simp
  unfold makeItems rainItems at hm
  simp only [List.cons_append, List.nil_append, List.mem_cons, List.not_mem_nil, or_false, Prod.mk.injEq] at hm
  rcases hm with ⟨-, -, h⟩ | ⟨-, h, -⟩ | ⟨-, h, -⟩ | ⟨-, h, -⟩ | ⟨-, h, -⟩
  · exact JVal.str.inj h
  all_goals exact absurd h (by decide)

theorem second_file_name {x : Str} (h : Spec.LastGiven secondItems "commandsFile".toList (.str x)) : x = "/w/two.json".toList := by
  obtain ⟨pre, w, post, he, hp⟩ := h
  rcases List.eq_nil_or_concat post with rfl | ⟨l, a, rfl⟩
  · have := (List.append_inj' he rfl).2
    simp only [List.cons.injEq, Prod.mk.injEq, and_true] at this
    exact (JVal.str.inj this.2.2).symm
  · have h1 : secondItems = (pre ++ (w, "commandsFile".toList, JVal.str x) :: l) ++ [a] := by rw [he]; simp
    have := (List.append_inj' h1 rfl).2
    simp only [List.cons.injEq, and_true] at this
    exact absurd (by rw [← this]) (hp a (by simp))

/-- C184: the file with two pieces and the one without give the same. -/
example (le : Str → Str → Bool) (ne : NumExpr) (w : Store (Table 250)) :
    runIn le ne (secondSite (cellSite { rainCmd with aggr := none } rain none)) fourTables w (argv makeItems) =
    runIn le ne (secondSite (cellSite { rainCmd with aggr := none } rain none)) fourTables w (argv secondItems) := by
  have hcom := second_site (with_create (cell_command none none (Or.inl ⟨rfl, rfl⟩) rain none))
  have hask := make_asked { rainCmd with aggr := none } rfl rain none
  refine split_command le ne _ fourTables w makeItems secondItems { rainReq with aggr := none } ⟨true, "/t/".toList, some 2, false⟩
    hcom (second_items _ rfl hcom) ?_ ?_ rfl four_split
  · refine ⟨hask.create, hask.parallel, fun c hc => ⟨(hask.file c hc).1, ?_⟩⟩
    rw [first_file_name hc]
    decide +kernel
  · refine ⟨typed_append hask.create (by decide), typed_append hask.parallel (by decide), fun c hc => ⟨?_, ?_⟩⟩
    · exact chosen_append (hask.file _ ⟨[], _, makeItems.tail, rfl, by decide +kernel⟩).1 (by decide)
    · rw [second_file_name hc]
      decide +kernel

/-- C184: with `nearest` and one piece, the command that writes three maps without pieces crashes. -/
example (le : Str → Str → Bool) :
    ∃ e, (e = .valueError ∨ e = .zeroDivision) ∧ runIn le (fun _ => none)
      (cellSite { rainCmd with aggr := none } rain none) { cellTables with splits := fun _ => some 1 } bare
      (argv makeItems) = (.ended (.error e) [], bare) := by
  have hcom := with_create (cell_command none none (Or.inl ⟨rfl, rfl⟩) rain none)
  have hask := make_asked { rainCmd with aggr := none } rfl rain none
  have hrun : ∃ files, CommandRun.run (fun _ => none)
      (withTable (cellSite { rainCmd with aggr := none } rain none) (.nearest fun _ => 0)) (argv makeItems) =
        .ended (.ok 0) files ∧ files ≠ [] := by
    have h : (match CommandRun.run (fun _ => none)
      (withTable (cellSite { rainCmd with aggr := none } rain none) (.nearest fun _ => 0)) (argv makeItems) with
        | .ended (.ok 0) files => !files.isEmpty
        | _ => false) = true := by decide +kernel
    split at h
    · exact ⟨_, ‹_›, by rintro rfl; cases h⟩
    · cases h
  obtain ⟨files, hrun, hne⟩ := hrun
  exact split_nearest_command le (fun _ => none) _ { cellTables with splits := fun _ => some 1 } bare makeItems
    { rainReq with aggr := none } hcom rfl ⟨true, "/t/".toList, some 1, false⟩
    ⟨hask.create, hask.parallel, fun c hc => ⟨(hask.file c hc).1, rfl⟩⟩ (bare_no_table _ _)
    ⟨rfl, ⟨show "/t/".toList ≠ [] by decide, rfl, rfl⟩, by decide, (by intro p hp; cases hp)⟩ _ files hrun hne
    true 2 farSrc cellQuery rfl 1 rfl (fun row h => by
      obtain rfl : row = List.finRange 250 := List.mem_singleton.1 h
      exact fun h => absurd (congrArg List.length h) (by rw [List.length_finRange]; decide))

end Demo

end PyG2P
