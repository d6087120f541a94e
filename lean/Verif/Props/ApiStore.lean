import Verif.Model.ApiStore
import Verif.Props.ApiRunTwo
import Verif.Props.TableCommandTwo

/-! # API runs use and create the tables of commands — src/pyg2p/main/api.py 258-315 -/

namespace PyG2P
open CommandRun Store Spec TableApply Converter Aggregator
variable {n m k : Nat}

/-! ## The loop over the maps does not depend on what is done with them -/

theorem mapLoop_put {β γ δ : Type} (le : Str → Str → Bool) (r : RunIn n m k) (q q2 : Lookup k) (name : γ → δ)
    (put : δ → Arr k → β) (l : List (γ × Field n m × Bool)) :
    ∀ w, r.mapLoop le q q2 put w (l.map fun p => (name p.1, p.2.1, p.2.2)) =
      ⟨(r.mapLoop le q q2 (fun x a => (x, a)) w l).maps.map (fun p => put (name p.1) p.2),
        (r.mapLoop le q q2 (fun x a => (x, a)) w l).error, (r.mapLoop le q q2 (fun x a => (x, a)) w l).store⟩ := by
  induction l with
  | nil => intro w; rfl
  | cons p l ih =>
    obtain ⟨x, f, b⟩ := p
    intro w
    rw [List.map_cons]
    unfold RunIn.mapLoop
    dsimp only
    cases w.table le (if b = true then q2 else q) with
    | mk t w' =>
      cases t with
      | error e => rfl
      | ok t =>
        dsimp only
        cases r.renderBy t b f with
        | error e => rfl
        | ok a =>
          dsimp only
          rw [ih w']
          rfl

/-- The maps made: those of the first jobs, each with some table; all of them if there is no error. -/
theorem mapLoop_made {γ : Type} (le : Str → Str → Bool) (r : RunIn n m k) (q q2 : Lookup k)
    (l : List (γ × Field n m × Bool)) :
    ∀ w, (∀ p ∈ (r.mapLoop le q q2 (fun x a => (x, a)) w l).maps, ∀ c, p.2.masked c = false) ∧
      ((r.mapLoop le q q2 (fun x a => (x, a)) w l).error = none →
        (r.mapLoop le q q2 (fun x a => (x, a)) w l).maps.map Prod.fst = l.map Prod.fst) := by
  induction l with
  | nil =>
    intro w
    exact ⟨fun p hp => absurd hp (by unfold RunIn.mapLoop; simp), fun _ => rfl⟩
  | cons p l ih =>
    obtain ⟨x, f, b⟩ := p
    intro w
    unfold RunIn.mapLoop
    dsimp only
    cases w.table le (if b = true then q2 else q) with
    | mk t w' =>
      cases t with
      | error e => exact ⟨fun p hp => absurd hp (by simp), (by intro h; cases h)⟩
      | ok t =>
        dsimp only
        cases hr : r.renderBy t b f with
        | error e => exact ⟨fun p hp => absurd hp (by simp), (by intro h; cases h)⟩
        | ok a =>
          dsimp only
          obtain ⟨h1, h2⟩ := ih w'
          constructor
          · intro p hp c
            rcases List.mem_cons.1 hp with rfl | hp
            · exact render_unmasked _ b f a hr c
            · exact h1 p hp c
          · intro he
            rw [List.map_cons, List.map_cons, h2 he]

/-- C93: what a cell of a map returned is. -/
theorem maskValues_cell (mask : Option (Fin k → Bool)) (mv : Num) (a : Arr k) (c : Fin k) (h : a.masked c = false) :
    Api.maskValues mask mv a c = if outside mask c = true then mv else a.data c := by
  unfold Api.maskValues
  rw [h, Bool.or_false]

/-- The same tables for the command and the API: the same end, the same tables left, the same maps. -/
theorem run_api_tables (le : Str → Str → Bool) (ne : NumExpr) (missing : PyErr) (w : Store (Table k)) (q q2 : Lookup k)
    (r : RunIn n m k) (hn : (Dict.keys r.ctrl.msgs.first).Nodup) :
    (r.apiMapsIn le ne missing w q q2).error = (r.pcrasterIn le ne w (q.underApi missing) (q2.underApi missing)).error ∧
    (r.apiMapsIn le ne missing w q q2).store = (r.pcrasterIn le ne w (q.underApi missing) (q2.underApi missing)).store ∧
    ((r.pcrasterIn le ne w (q.underApi missing) (q2.underApi missing)).error = none →
      SameMaps r.mask r.mvClone (r.apiMapsIn le ne missing w q q2).maps
        (r.pcrasterIn le ne w (q.underApi missing) (q2.underApi missing)).maps) ∧
    ((r.apiMapsIn le ne missing w q q2).error ≠ none → (r.apiMapsIn le ne missing w q q2).maps = []) := by
  unfold RunIn.apiMapsIn RunIn.pcrasterIn
  cases hf : r.fields ne with
  | error e => exact ⟨rfl, rfl, (by intro h; cases h), fun _ => rfl⟩
  | ok vc =>
    obtain ⟨values, change⟩ := vc
    dsimp only
    generalize q.underApi missing = p1
    generalize q2.underApi missing = p2
    -- both loops from one loop
    let L : List (((Step × Field n m × Bool) × Nat) × Field n m × Bool) :=
      ((gridLoop change false values).zipIdx 1).map fun p => (p, p.1.2.1, p.1.2.2)
    have e1 : ((gridLoop change false values).map fun p => (p.1, p.2.1, p.2.2)) = L.map fun p => (p.1.1.1, p.2.1, p.2.2) := by
      show _ = (((gridLoop change false values).zipIdx 1).map _).map _
      rw [List.map_map]
      conv_lhs => rw [← List.zipIdx_map_fst 1 (gridLoop change false values)]
      rw [List.map_map]
      rfl
    have e2 : (((gridLoop change false values).zipIdx 1).map fun p =>
        (pcrName r.namePrefix r.fmap r.ext p.2, p.1.2.1, p.1.2.2)) =
        L.map fun p => (pcrName r.namePrefix r.fmap r.ext p.1.2, p.2.1, p.2.2) := by
      show _ = (((gridLoop change false values).zipIdx 1).map _).map _
      rw [List.map_map]
      rfl
    rw [e1, e2, mapLoop_put le r p1 p2 (fun p => p.1.1) (fun s a => (s, Api.maskValues r.mask r.mvClone a)) L w,
      mapLoop_put le r p1 p2 (fun p => pcrName r.namePrefix r.fmap r.ext p.2)
        (fun name a => (name, pcrWrite r.mask r.mvClone a)) L w]
    obtain ⟨hmask, hall⟩ := mapLoop_made le r p1 p2 L w
    generalize r.mapLoop le p1 p2 (fun x a => (x, a)) w L = o at hmask hall ⊢
    obtain ⟨maps, error, store⟩ := o
    dsimp only at hmask hall ⊢
    cases error with
    | some e => exact ⟨rfl, rfl, (by intro h; cases h), fun _ => rfl⟩
    | none =>
      dsimp only
      have hfst := hall rfl
      have hsteps : (maps.map fun p => (p.1.1.1, Api.maskValues r.mask r.mvClone p.2)).map (·.1) = Dict.keys values := by
        rw [List.map_map]
        have : (maps.map Prod.fst).map (fun p => p.1.1) = Dict.keys values := by
          rw [hfst]
          show ((((gridLoop change false values).zipIdx 1).map _).map _).map _ = _
          rw [List.map_map, List.map_map]
          unfold Dict.keys
          rw [← gridLoop_keys change values false]
          conv_rhs => rw [← List.zipIdx_map_fst 1 (gridLoop change false values)]
          rw [List.map_map]
          rfl
        rw [← this, List.map_map]
        rfl
      have hnd := fields_nodup ne r hn values change hf
      have hs := fields_sorted ne r values change hf
      have hord : (maps.map fun p => (p.1.1.1, Api.maskValues r.mask r.mvClone p.2)).Pairwise
          fun a b => a.1.endStep ≤ b.1.endStep := by
        have : ((maps.map fun p => (p.1.1.1, Api.maskValues r.mask r.mvClone p.2)).map (·.1)).Pairwise
            fun a b : Step => a.endStep ≤ b.endStep := by
          rw [hsteps]
          unfold Dict.keys
          rw [List.pairwise_map]
          exact hs
        rw [List.pairwise_map] at this
        exact this
      rw [ofPairs_nodup _ (by rw [hsteps]; exact hnd), sorted_unchanged (fun p : Step × (Fin k → Num) => p.1.endStep) _ hord]
      refine ⟨rfl, rfl, fun _ => ⟨by simp, by rw [hsteps]; exact hnd, hord, ?_⟩, fun h => absurd rfl h⟩
      intro j p file hp hfile c
      rw [List.getElem?_map] at hp hfile
      cases hj : maps[j]? with
      | none => rw [hj] at hp; cases hp
      | some b =>
        rw [hj] at hp hfile
        have hmk := hmask b (List.mem_of_getElem? hj) c
        rw [← Option.some.inj hp, ← Option.some.inj hfile]
        dsimp only
        simp only [maskValues_cell _ _ _ _ hmk, pcrWrite_shown _ _ _ _ hmk]
        unfold shown
        constructor
        · intro ho
          rw [if_pos ho, if_pos (.inl ho)]
          exact ⟨rfl, rfl⟩
        · intro ho
          rw [ho, if_neg (show ¬ (false = true) by decide)]
          by_cases hna : b.2.data c = .nan
          · rw [if_pos (.inr hna), if_pos hna]
          · rw [if_neg hna, if_neg (by
              rintro (h | h)
              · cases h
              · exact hna h)]

theorem under_scipy {missing : PyErr} {q : Lookup k} (h : q.scipy = true) : q.underApi missing = q := by
  unfold Lookup.underApi
  rw [if_pos h]

theorem under_run (missing : PyErr) (q : Lookup k) : (q.underApi missing).run = q.run := by
  unfold Lookup.underApi
  split_ifs <;> rfl

/-- A run that must make a table with a method of the GRIB library. -/
theorem run_api_grib_fails (le : Str → Str → Bool) (ne : NumExpr) (missing : PyErr) (w : Store (Table k))
    (q q2 : Lookup k) (r : RunIn n m k) (hq : q.scipy = false) (hnew : MayCreate w q.run) (hq2 : q2.scipy = false)
    (hnew2 : MayCreate w q2.run) (hne : (r.pcrasterIn le ne w q q2).maps ≠ []) :
    r.apiMapsIn le ne missing w q q2 = ⟨[], some missing, w⟩ := by
  have hfail : ∀ q' : Lookup k, q'.scipy = false → MayCreate w q'.run →
      w.table le (q'.underApi missing) = (.error missing, w) := by
    intro q' h1 h2
    refine build_fails le w _ (by rw [under_run]; exact h2) missing ?_
    unfold Lookup.underApi
    rw [if_neg (by rw [h1]; decide)]
  unfold RunIn.apiMapsIn
  unfold RunIn.pcrasterIn at hne
  cases hf : r.fields ne with
  | error e => rw [hf] at hne; exact absurd rfl hne
  | ok vc =>
    obtain ⟨values, change⟩ := vc
    rw [hf] at hne
    dsimp only at hne ⊢
    cases hl : gridLoop change false values with
    | nil => rw [hl] at hne; exact absurd rfl hne
    | cons p l =>
      rw [List.map_cons]
      unfold RunIn.mapLoop
      have : w.table le (if p.2.2 = true then q2.underApi missing else q.underApi missing) = (.error missing, w) := by
        split_ifs
        · exact hfail q2 hq2 hnew2
        · exact hfail q hq hnew
      dsimp only
      rw [this]

/-! ## One input file -/

/-- **C185.** With a search tree, or triangles. On the same tables an API run ends as the command with PCRaster output does,
with the same error or none, and leaves the same tables; if there is no error it returns the maps of the command. -/
theorem api_tables_as_command (le : Str → Str → Bool) (ne : NumExpr) (missing : PyErr) (w : Store (Table k))
    (q : Lookup k) (hq : q.scipy = true) (x : FileIn n k) (hh : ∀ a, x.aggr = some a → a.halfweights = false) :
    (x.apiMapsIn le ne missing w q).error = (x.pcrasterIn le ne w q).error ∧
    (x.apiMapsIn le ne missing w q).store = (x.pcrasterIn le ne w q).store ∧
    ((x.pcrasterIn le ne w q).error = none →
      SameMaps x.mask x.mvClone (x.apiMapsIn le ne missing w q).maps (x.pcrasterIn le ne w q).maps) := by
  unfold FileIn.apiMapsIn FileIn.pcrasterIn
  rw [withoutHalf_eq hh]
  cases hset : x.settings with
  | error e => exact ⟨rfl, rfl, (by intro h; cases h)⟩
  | ok r =>
    obtain ⟨h1, h2, h3, -⟩ := run_api_tables le ne missing w q q r (settings_nodup x r hset)
    rw [under_scipy hq] at h1 h2 h3
    rw [(settings_mask hset).1, (settings_mask hset).2] at h3
    exact ⟨h1, h2, h3⟩

/-- Any method: what the command with the tables of the API would do. -/
theorem api_as_under (le : Str → Str → Bool) (ne : NumExpr) (missing : PyErr) (w : Store (Table k))
    (q : Lookup k) (x : FileIn n k) (hh : ∀ a, x.aggr = some a → a.halfweights = false) :
    (x.apiMapsIn le ne missing w q).error = (x.pcrasterIn le ne w (q.underApi missing)).error ∧
    ((x.pcrasterIn le ne w (q.underApi missing)).error = none →
      SameMaps x.mask x.mvClone (x.apiMapsIn le ne missing w q).maps (x.pcrasterIn le ne w (q.underApi missing)).maps) := by
  unfold FileIn.apiMapsIn FileIn.pcrasterIn
  rw [withoutHalf_eq hh]
  cases hset : x.settings with
  | error e => exact ⟨rfl, (by intro h; cases h)⟩
  | ok r =>
    obtain ⟨h1, h2, h3, -⟩ := run_api_tables le ne missing w q q r (settings_nodup x r hset)
    rw [(settings_mask hset).1, (settings_mask hset).2] at h3
    exact ⟨h1, h3⟩

/-- **C185.** Any method. Once a command has written maps (`WritesAlways`: C167, C168), an API run with the same settings
returns them, after any further history of runs and restarts. -/
theorem api_after_command (le : Str → Str → Bool) (global template : Dict Str TblEntry) (ne : NumExpr) (missing : PyErr)
    (w : Store (Table k)) (q : Lookup k) (x : FileIn n k) (hh : ∀ a, x.aggr = some a → a.halfweights = false)
    (files : List (Str × (Fin k → Num))) (hw : WritesAlways le global template ne w q x files) (q' : Lookup k)
    (h : List (Act (Table k))) (hid : q'.run.id = q.run.id) (hdir : q'.run.userDir = q.run.userDir) :
    (x.apiMapsIn le ne missing (after le global template (x.pcrasterIn le ne w q).store h) q').error = none ∧
    SameMaps x.mask x.mvClone
      (x.apiMapsIn le ne missing (after le global template (x.pcrasterIn le ne w q).store h) q').maps files := by
  obtain ⟨-, -, h3⟩ := hw
  obtain ⟨e1, e2⟩ := h3 (q'.underApi missing) h (by rw [under_run]; exact hid) (by rw [under_run]; exact hdir)
  obtain ⟨a1, a2⟩ := api_as_under le ne missing (after le global template (x.pcrasterIn le ne w q).store h) q' x hh
  rw [e1] at a1
  have a2 := a2 e1
  rw [e2] at a2
  exact ⟨a1, a2⟩

/-- **C185.** With a search tree, or triangles, the first run on a grid can be one of the API: it returns the maps that the
command would write and leaves the table behind; after any further history of runs and restarts the command writes these
maps, and an API run returns them. -/
theorem api_first_run (le : Str → Str → Bool) (global template : Dict Str TblEntry) (ne : NumExpr) (missing : PyErr)
    (w : Store (Table k)) (q : Lookup k) (hq : q.scipy = true) (x : FileIn n k)
    (hh : ∀ a, x.aggr = some a → a.halfweights = false) (files : List (Str × (Fin k → Num)))
    (hw : WritesAlways le global template ne w q x files) :
    ((x.apiMapsIn le ne missing w q).error = none ∧
      SameMaps x.mask x.mvClone (x.apiMapsIn le ne missing w q).maps files) ∧
    ∀ (q' : Lookup k) (h : List (Act (Table k))), q'.run.id = q.run.id → q'.run.userDir = q.run.userDir →
      ∀ w', w' = after le global template (x.apiMapsIn le ne missing w q).store h →
        (x.pcrasterIn le ne w' q').error = none ∧ (x.pcrasterIn le ne w' q').maps = files ∧
        (x.apiMapsIn le ne missing w' q').error = none ∧
        SameMaps x.mask x.mvClone (x.apiMapsIn le ne missing w' q').maps files := by
  obtain ⟨a1, a2, a3⟩ := api_tables_as_command le ne missing w q hq x hh
  have hw' := hw
  obtain ⟨h1, h2, h3⟩ := hw'
  rw [h1] at a1
  have a3 := a3 h1
  rw [h2] at a3
  refine ⟨⟨a1, a3⟩, ?_⟩
  rintro q' h hid hdir w' rfl
  rw [a2]
  obtain ⟨b1, b2⟩ := h3 q' h hid hdir
  obtain ⟨c1, c2⟩ := api_after_command le global template ne missing w q x hh files hw q' h hid hdir
  exact ⟨b1, b2, c1, c2⟩

/-- **C185 is violated** with the methods of the GRIB library: an API run that must make a table, and may, fails in the
library and leaves the tables as they are, also where the command makes its table and writes maps. -/
theorem api_grib_fails (le : Str → Str → Bool) (ne : NumExpr) (missing : PyErr) (w : Store (Table k)) (q : Lookup k)
    (hq : q.scipy = false) (hnew : MayCreate w q.run) (x : FileIn n k)
    (hh : ∀ a, x.aggr = some a → a.halfweights = false) (hne : (x.pcrasterIn le ne w q).maps ≠ []) :
    x.apiMapsIn le ne missing w q = ⟨[], some missing, w⟩ := by
  unfold FileIn.apiMapsIn
  unfold FileIn.pcrasterIn at hne
  rw [withoutHalf_eq hh]
  cases hset : x.settings with
  | error e => rw [hset] at hne; exact absurd rfl hne
  | ok r =>
    rw [hset] at hne
    exact run_api_grib_fails le ne missing w q q r hq hnew hq hnew hne

/-! ## Two input files -/

/-- **C185.** Two input files, with a search tree or triangles: `r` is the run of the command. -/
theorem api_two_tables_as_command (le : Str → Str → Bool) (ne : NumExpr) (missing : PyErr) (w : Store (Table k))
    (q q2 : Lookup k) (hq : q.scipy = true) (hq2 : q2.scipy = true) (x : FileIn n k) (y : SecondFile m)
    (hh : ∀ a, x.aggr = some a → a.halfweights = false) (r : RunIn n m k) (hr : x.settingsTwo y = .ok r) :
    (x.apiMapsTwoIn le ne missing w q q2 y).error = (r.pcrasterIn le ne w q q2).error ∧
    (x.apiMapsTwoIn le ne missing w q q2 y).store = (r.pcrasterIn le ne w q q2).store ∧
    ((r.pcrasterIn le ne w q q2).error = none →
      SameMaps x.mask x.mvClone (x.apiMapsTwoIn le ne missing w q q2 y).maps (r.pcrasterIn le ne w q q2).maps) := by
  unfold FileIn.apiMapsTwoIn
  rw [withoutHalf_eq hh, hr]
  obtain ⟨g1, g2, g3⟩ := settings_two_nodup x y r hr
  obtain ⟨h1, h2, h3, -⟩ := run_api_tables le ne missing w q q2 r g1
  rw [under_scipy hq, under_scipy hq2] at h1 h2 h3
  rw [g2, g3] at h3
  exact ⟨h1, h2, h3⟩

/-- **C185 is violated** with the methods of the GRIB library and two input files. -/
theorem api_two_grib_fails (le : Str → Str → Bool) (ne : NumExpr) (missing : PyErr) (w : Store (Table k))
    (q q2 : Lookup k) (hq : q.scipy = false) (hnew : MayCreate w q.run) (hq2 : q2.scipy = false)
    (hnew2 : MayCreate w q2.run) (x : FileIn n k) (y : SecondFile m)
    (hh : ∀ a, x.aggr = some a → a.halfweights = false) (r : RunIn n m k) (hr : x.settingsTwo y = .ok r)
    (hne : (r.pcrasterIn le ne w q q2).maps ≠ []) :
    x.apiMapsTwoIn le ne missing w q q2 y = ⟨[], some missing, w⟩ := by
  unfold FileIn.apiMapsTwoIn
  rw [withoutHalf_eq hh, hr]
  exact run_api_grib_fails le ne missing w q q2 r hq hnew hq2 hnew2 hne

namespace Demo

/-- C185: three maps returned by the first run, and by commands and API runs after it. -/
example (le : Str → Str → Bool) (missing : PyErr) :
    ∃ files, WritesAlways le [] [] (fun _ => none) bare
      (cellMethod.lookup none [List.finRange 250] (tblRun "a" "t" true)) (cellsIn none none) files ∧ files.length = 3 ∧
      SameMaps none .nan ((cellsIn none none).apiMapsIn le (fun _ => none) missing bare
        (cellMethod.lookup none [List.finRange 250] (tblRun "a" "t" true))).maps files := by
  obtain ⟨R, ord, files, h1, h2, h3, h4, h5, h6⟩ := table_plain_run le [] [] bare (bare_reached le) none [List.finRange 250]
    (by simp) cellMethod _ cell_answers (tblRun "a" "t" true) bare_create (fun _ => none) (cellsIn none none) id (-9999)
    rfl (by decide +kernel) rfl 18 rain_last _ rfl (fun h => absurd (congrArg List.length h) (by decide +kernel)) 10
    (by decide +kernel) (differ_of_ends (by decide +kernel)) (by decide +kernel) (by decide +kernel) (.inl ⟨.inl rfl, rfl⟩)
  exact ⟨files, h4, h5.trans (h2.length_eq.trans (by decide +kernel)),
    (api_first_run le [] [] (fun _ => none) missing bare _ rfl (cellsIn none none) (by intro a h; cases h) files h4).1.2⟩

/-- the second point, found by the GRIB library for all cells but the last, which has no coordinates. -/
def gribCells : Method 250 := .gribNearest true false (fun _ _ => some 1) (.fin (-9999)) 250
  fun c => if c.val < 249 then ⟨.fin 45, .fin 7⟩ else ⟨.fin (-9999), .fin (-9999)⟩

theorem grib_answers : Answers (n := 2) none [List.finRange 250] gribCells
    (.found fun c => if c.val < 249 then some 1 else none) := by
  refine ⟨le_refl _, fun c => ?_⟩
  by_cases hc : c.val < 249
  · simp only [if_pos hc]
    exact ⟨by decide, fun _ => rfl, fun h => absurd ⟨7, rfl, by norm_num, by decide +kernel⟩ h⟩
  · simp only [if_neg hc]
    exact ⟨by decide, (by rintro ⟨_, _, _, h⟩; exact absurd rfl h), fun _ => trivial⟩

/-- C185 violated: the command writes three maps, the API run fails; after the command the API returns the maps. -/
example (le : Str → Str → Bool) (missing : PyErr) :
    ∃ files, ((cellsIn none none).pcrasterIn le (fun _ => none) bare
      (gribCells.lookup none [List.finRange 250] (tblRun "a" "t" true))).maps = files ∧ files.length = 3 ∧
    (cellsIn none none).apiMapsIn le (fun _ => none) missing bare
      (gribCells.lookup none [List.finRange 250] (tblRun "a" "t" true)) = ⟨[], some missing, bare⟩ ∧
    SameMaps none .nan ((cellsIn none none).apiMapsIn le (fun _ => none) missing
      ((cellsIn none none).pcrasterIn le (fun _ => none) bare
        (gribCells.lookup none [List.finRange 250] (tblRun "a" "t" true))).store
      (gribCells.lookup none [List.finRange 250] (tblRun "a" "t" false))).maps files := by
  obtain ⟨R, ord, files, h1, h2, h3, h4, h5, h6⟩ := table_plain_run le [] [] bare (bare_reached le) none [List.finRange 250]
    (by simp) gribCells _ grib_answers (tblRun "a" "t" true) bare_create (fun _ => none) (cellsIn none none) id (-9999)
    rfl (by decide +kernel) rfl 18 rain_last _ rfl (fun h => absurd (congrArg List.length h) (by decide +kernel)) 10
    (by decide +kernel) (differ_of_ends (by decide +kernel)) (by decide +kernel) (by decide +kernel) (.inl ⟨.inl rfl, rfl⟩)
  have hl : files.length = 3 := h5.trans (h2.length_eq.trans (by decide +kernel))
  have hf : ∀ a, (cellsIn none none).aggr = some a → a.halfweights = false := by intro a h; cases h
  refine ⟨files, h4.2.1, hl, api_grib_fails le _ missing bare _ rfl bare_create (cellsIn none none) hf ?_,
    (api_after_command le [] [] _ missing bare _ (cellsIn none none) hf files h4
      (gribCells.lookup none [List.finRange 250] (tblRun "a" "t" false)) [] rfl rfl).2⟩
  rw [h4.2.1]
  intro h0
  rw [h0] at hl
  cases hl

end Demo

end PyG2P
