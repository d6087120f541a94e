import Verif.Props.PipelineRun

/-! # C121–C123 — missing cells in the output, and the two output formats -/

namespace PyG2P
open Spec TableApply Converter Aggregator
variable {n m k : Nat}

namespace Spec

/-- The table knows no source point for cell `c`. -/
def NoSource (t : Table k) (n : Nat) (c : Fin k) : Prop :=
  match t with
  | .gribNearest tbl => ∀ e ∈ tbl, e.1 ≠ c
  | .gribInvdist tbl => ∀ e ∈ tbl, e.cell ≠ c
  | .nearest idx => idx c = n
  | .weighted rows => (∀ p ∈ rows c, p.1 = n) ∧ ((rows c).map (·.2)).sum = 1

/-- Every source point of cell `c` is masked in `v` (and there is one). -/
def AllMasked (t : Table k) (v : Arr n) (c : Fin k) : Prop :=
  match t with
  | .gribNearest tbl => ∃ e, rowFor (·.1) tbl c = some e ∧ maskedAt v e.2 = true
  | .gribInvdist tbl => ∃ e, rowFor Row.cell tbl c = some e ∧ maskedAt v e.p1.1 = true ∧ maskedAt v e.p2.1 = true ∧
      maskedAt v e.p3.1 = true ∧ maskedAt v e.p4.1 = true
  | .nearest idx => maskedAt v (idx c) = true
  | .weighted rows => rows c ≠ [] ∧ ∀ p ∈ rows c, maskedAt v p.1 = true

/-- Tables made with the GRIB library. -/
def GribTable (t : Table k) : Prop := (∃ tbl, t = .gribNearest tbl) ∨ ∃ tbl, t = .gribInvdist tbl

end Spec

/-! ## C121 -/

/-- A cell without source gets the missing value of the target coordinates, whatever the field. -/
theorem cellOf_noSource (t : Table k) (mv : Num) (v : Arr n) (c : Fin k) (h : NoSource t n c) :
    cellOf t mv v c = mv := by
  have none_of : ∀ {ρ : Type} (cell : ρ → Fin k) (tbl : List ρ), (∀ e ∈ tbl, cell e ≠ c) → rowFor cell tbl c = none := by
    intro ρ cell tbl h
    unfold rowFor
    rw [List.filter_eq_nil_iff.2 (by intro e he; simpa using h e he)]
    rfl
  cases t with
  | gribNearest tbl =>
    unfold cellOf
    dsimp only
    rw [none_of (fun e : Fin k × Nat => e.1) tbl h]
  | gribInvdist tbl =>
    unfold cellOf
    dsimp only
    rw [none_of Row.cell tbl h]
  | nearest idx =>
    change idx c = n at h
    unfold cellOf valueAt
    dsimp only
    rw [h, dif_neg (by omega)]
  | weighted rows =>
    obtain ⟨h1, h2⟩ := h
    have hr : scipyWeighted v mv [rows c] = .ok [cellOf (.weighted rows) mv v c] := by
      unfold scipyWeighted
      rw [mapM_all_ok _ (fun row => (row.map fun p : Nat × Num => p.2 * valueAt v mv p.1).sum) _ (by
        intro row hrow
        rw [List.mem_singleton] at hrow
        subst hrow
        rw [mapM_all_ok _ (fun p : Nat × Num => p.2 * valueAt v mv p.1) _ (by
          intro p hp
          rw [srcMv_eq v mv _ (by rw [h1 p hp])]
          rfl)]
        change Except.ok _ = _
        rw [foldl_add_sum, Num.zero_add'])]
      rfl
    exact ((C60_scipy_weighted v mv _ _ hr).2 0 _ _ rfl rfl).2.2 h1 h2

theorem cellOf_masked (t : Table k) (mv : Num) (v : Arr n) (c : Fin k) (ht : GribTable t) (h : AllMasked t v c) :
    cellOf t mv v c = mv := by
  rcases ht with ⟨tbl, rfl⟩ | ⟨tbl, rfl⟩
  · obtain ⟨e, he, hm⟩ := h
    unfold cellOf
    dsimp only
    rw [he]
    dsimp only
    unfold sample
    unfold maskedAt at hm
    by_cases hj : e.2 < n
    · rw [dif_pos hj] at hm ⊢
      rw [if_pos hm]
    · rw [dif_neg hj]
  · obtain ⟨e, he, h1, -⟩ := h
    unfold cellOf
    dsimp only
    rw [he]
    dsimp only
    rw [h1, Bool.true_or, Bool.true_or, Bool.true_or, if_pos rfl]

/-- **C121** (the part that holds). In a run on one grid without aggregation, cut-off and correction, whose target
coordinates and clone have the same missing value: a cell without source point is written as missing in every file,
and so is, with a table made with the GRIB library, a cell whose source points are all masked in the message. What is
missing: see `missing_number_written` (different missing values), `masked_lost` (tables of search trees),
`masked_lost_cut` (cut-off) and `missing_corrected` (correction). -/
theorem missing_written_partial (ne : NumExpr) (r : RunIn n m k) (f : Num → Num) (mv : ℚ)
    (hmv : r.ctrl.msgs.mv = .fin mv) (hconv : Means ne r.conversion f)
    (hone : r.ctrl.msgs.changeResolutionStep = none) (hfit : Fits r.table n) (hagg : r.ctrl.aggregate = false)
    (hcut : cuts r = false) (hcorr : r.height = none) (hsame : r.mvOut = r.mvClone) :
    ∃ (ord : Messages n) (files : List (Str × (Fin k → Num))), ord.Perm r.ctrl.msgs.first ∧
      r.pcraster ne = .ok files ∧ files.length = ord.length ∧
      ∀ (j : Nat) s v, ord[j]? = some (s, v) → ∃ name file, files[j]? = some (name, file) ∧
        ∀ c, NoSource r.table n c ∨ (GribTable r.table ∧ AllMasked r.table v c) → file c = r.mvClone := by
  obtain ⟨ord, files, h1, -, h3, h4, h5⟩ := plain_run ne r f mv hmv hconv hone hfit hagg
  refine ⟨ord, files, h1, h3, h4, fun j s v hj => ⟨_, _, h5 j s v hj, fun c hc => ?_⟩⟩
  rw [hcut, hcorr]
  change shown r.mask r.mvClone (cellOf r.table r.mvOut (convertedField mv f v) c) c = _
  have : cellOf r.table r.mvOut (convertedField mv f v) c = r.mvOut := by
    rcases hc with hc | ⟨ht, hc⟩
    · exact cellOf_noSource _ _ _ _ hc
    · refine cellOf_masked _ _ _ _ ht ?_
      have hm : ∀ j, maskedAt (convertedField mv f v) j = maskedAt v j := fun j => rfl
      rcases ht with ⟨tbl, ht⟩ | ⟨tbl, ht⟩
      · rw [ht] at hc ⊢; exact hc
      · rw [ht] at hc ⊢; exact hc
  rw [this, hsame]
  unfold shown
  split <;> rfl

/-- C121 fails whenever the missing value of the target coordinates is another number than that of the clone: every
cell inside the clone without source point is written as a number in every file (without correction). -/
theorem missing_number_written (ne : NumExpr) (r : RunIn n m k) (f : Num → Num) (mv : ℚ)
    (hmv : r.ctrl.msgs.mv = .fin mv) (hconv : Means ne r.conversion f)
    (hone : r.ctrl.msgs.changeResolutionStep = none) (hfit : Fits r.table n) (hagg : r.ctrl.aggregate = false)
    (hcorr : r.height = none) (q : ℚ) (hq : r.mvOut = .fin q) (hdiff : r.mvClone ≠ .fin q) (c : Fin k)
    (hc : NoSource r.table n c) (hin : outside r.mask c = false) :
    ∃ files, r.pcraster ne = .ok files ∧ files.length = r.ctrl.msgs.first.length ∧
      ∀ file ∈ files, file.2 c = .fin q ∧ file.2 c ≠ r.mvClone := by
  obtain ⟨ord, files, h1, -, h3, h4, h5⟩ := plain_run ne r f mv hmv hconv hone hfit hagg
  refine ⟨files, h3, by rw [h4, h1.length_eq], fun file hfile => ?_⟩
  obtain ⟨j, hj⟩ := List.mem_iff_getElem?.1 hfile
  have hlt : j < ord.length := by rw [← h4]; exact (List.getElem?_eq_some_iff.1 hj).1
  have := h5 j _ _ (List.getElem?_eq_getElem hlt)
  rw [hj] at this
  injection this with this
  rw [this]
  dsimp only
  rw [hcorr]
  change shown r.mask r.mvClone (cellOf r.table r.mvOut _ c) c = _ ∧ shown r.mask r.mvClone (cellOf r.table r.mvOut _ c) c ≠ _
  rw [cellOf_noSource _ _ _ _ hc, hq]
  have : shown r.mask r.mvClone (.fin q) c = .fin q := by
    unfold shown
    rw [if_neg]
    rintro (h | h)
    · rw [hin] at h; cases h
    · cases h
  rw [this]
  exact ⟨rfl, fun h => hdiff h.symm⟩

/-- C121 fails with every nearest-neighbour table of a search tree: for a cell inside the clone whose source point
is masked in a message, the file holds the (converted) number under the mask. -/
theorem masked_lost (ne : NumExpr) (r : RunIn n m k) (f : Num → Num) (mv : ℚ)
    (hmv : r.ctrl.msgs.mv = .fin mv) (hconv : Means ne r.conversion f)
    (hone : r.ctrl.msgs.changeResolutionStep = none) (hfit : Fits r.table n) (hagg : r.ctrl.aggregate = false)
    (hcut : cuts r = false) (hcorr : r.height = none) (idx : Fin k → Nat) (ht : r.table = .nearest idx) (c : Fin k)
    (hc : idx c < n) (hin : outside r.mask c = false) (p : Step × Arr n) (hp : p ∈ r.ctrl.msgs.first)
    (_hm : p.2.masked ⟨idx c, hc⟩ = true) (q : ℚ) (hq : p.2.data ⟨idx c, hc⟩ = .fin mv ∧ q = mv ∨
      p.2.data ⟨idx c, hc⟩ ≠ .fin mv ∧ f (p.2.data ⟨idx c, hc⟩) = .fin q) :
    ∃ files, r.pcraster ne = .ok files ∧ ∃ file ∈ files, file.2 c = .fin q := by
  obtain ⟨ord, files, h1, -, h3, h4, h5⟩ := plain_run ne r f mv hmv hconv hone hfit hagg
  obtain ⟨j, hj⟩ := List.mem_iff_getElem?.1 (h1.mem_iff.2 hp)
  refine ⟨files, h3, _, List.mem_of_getElem? (h5 j p.1 p.2 hj), ?_⟩
  dsimp only
  rw [hcut, hcorr, ht]
  change shown r.mask r.mvClone (valueAt (convertedField mv f p.2) r.mvOut (idx c)) c = _
  have : valueAt (convertedField mv f p.2) r.mvOut (idx c) = .fin q := by
    unfold valueAt convertedField
    rw [dif_pos hc]
    dsimp only
    rcases hq with ⟨h, rfl⟩ | ⟨h, h'⟩
    · rw [if_pos h]
    · rw [if_neg h, h']
  rw [this]
  unfold shown
  rw [if_neg]
  rintro (h | h)
  · rw [hin] at h; cases h
  · cases h

/-- C121 fails with cut-off, even with tables of the GRIB library: the mask is gone, and a cell whose source point is
masked gets the number under the mask (0 if it is negative). -/
theorem masked_lost_cut (ne : NumExpr) (r : RunIn n m k) (f : Num → Num) (mv : ℚ)
    (hmv : r.ctrl.msgs.mv = .fin mv) (hconv : Means ne r.conversion f)
    (hone : r.ctrl.msgs.changeResolutionStep = none) (hfit : Fits r.table n) (hagg : r.ctrl.aggregate = false)
    (hcut : cuts r = true) (hcorr : r.height = none) (tbl : List (Fin k × Nat)) (ht : r.table = .gribNearest tbl)
    (c : Fin k) (e : Fin k × Nat) (he : rowFor (·.1) tbl c = some e) (hc : e.2 < n) (hin : outside r.mask c = false)
    (p : Step × Arr n) (hp : p ∈ r.ctrl.msgs.first) (_hm : p.2.masked ⟨e.2, hc⟩ = true)
    (hd : p.2.data ⟨e.2, hc⟩ = .fin mv) :
    ∃ files, r.pcraster ne = .ok files ∧ ∃ file ∈ files, file.2 c = .fin (if mv < 0 then 0 else mv) := by
  obtain ⟨ord, files, h1, -, h3, h4, h5⟩ := plain_run ne r f mv hmv hconv hone hfit hagg
  obtain ⟨j, hj⟩ := List.mem_iff_getElem?.1 (h1.mem_iff.2 hp)
  refine ⟨files, h3, _, List.mem_of_getElem? (h5 j p.1 p.2 hj), ?_⟩
  dsimp only
  rw [hcut, hcorr, ht]
  have : cellOf (.gribNearest tbl) r.mvOut (Spec.cutField true (convertedField mv f p.2)) c =
      .fin (if mv < 0 then 0 else mv) := by
    have hl : (Num.fin mv).ltb 0 = decide (mv < 0) := rfl
    have hdata : (Spec.cutField true (convertedField mv f p.2)).data ⟨e.2, hc⟩ = .fin (if mv < 0 then 0 else mv) := by
      change (if ((if p.2.data ⟨e.2, hc⟩ = .fin mv then Num.fin mv else f (p.2.data ⟨e.2, hc⟩)).ltb 0) = true then 0
        else if p.2.data ⟨e.2, hc⟩ = .fin mv then Num.fin mv else f (p.2.data ⟨e.2, hc⟩)) = _
      rw [if_pos hd, hl]
      by_cases h : mv < 0
      · simp [h]; rfl
      · simp [h]
    unfold cellOf
    dsimp only
    rw [he]
    unfold sample
    dsimp only
    rw [dif_pos hc, hdata]
    rfl
  change shown r.mask r.mvClone (cellOf (.gribNearest tbl) r.mvOut _ c) c = _
  rw [this]
  unfold shown
  rw [if_neg]
  rintro (h | h)
  · rw [hin] at h; cases h
  · cases h

/-! ## C123 -/

/-- **C123** (the part that holds). In a run on one grid with correction, whose target coordinates have the netCDF
fill value (as netCDF target maps have), a cell with source inside the clone where both heights are known holds the
formula of target height, interpolated value and surface height. What is missing: see `missing_corrected` and
`height_missing_written`. -/
theorem corrected_run_partial (ne : NumExpr) (r : RunIn n m k) (f : Num → Num) (mv : ℚ)
    (hmv : r.ctrl.msgs.mv = .fin mv) (hconv : Means ne r.conversion f)
    (hone : r.ctrl.msgs.changeResolutionStep = none) (hfit : Fits r.table n) (hagg : r.ctrl.aggregate = false)
    (h : Height k) (hh : r.height = some h) (demMv gemMv : ℚ) (hdm : h.demMv = .fin demMv) (hgm : h.gemMv = .fin gemMv) :
    ∃ (ord : Messages n) (files : List (Str × (Fin k → Num))), ord.Perm r.ctrl.msgs.first ∧
      r.pcraster ne = .ok files ∧ files.length = ord.length ∧
      ∀ (j : Nat) s v, ord[j]? = some (s, v) → ∃ name file, files[j]? = some (name, file) ∧
        ∀ c x, cellOf r.table r.mvOut (Spec.cutField (cuts r) (convertedField mv f v)) c = x →
          x ≠ .fin (9969209968386869 * 10 ^ 21) → h.dem.data c ≠ .fin demMv → h.gem.data c ≠ .fin gemMv →
          outside r.mask c = false → h.formula (h.dem.data c) x (h.gem.data c) ≠ .nan →
          file c = h.formula (h.dem.data c) x (h.gem.data c) := by
  have hne : ∀ (x : Num) (q : ℚ), x ≠ .fin q → x.neb (.fin q) = true := by
    intro x q h
    cases x with
    | nan => rfl
    | fin a => simpa [Num.neb] using h
  obtain ⟨ord, files, h1, -, h3, h4, h5⟩ := plain_run ne r f mv hmv hconv hone hfit hagg
  refine ⟨ord, files, h1, h3, h4, fun j s v hj => ⟨_, _, h5 j s v hj, fun c x hx hf hd hg hin hn => ?_⟩⟩
  rw [hx, hh]
  have : finalCell (some h) x c = h.formula (h.dem.data c) x (h.gem.data c) := by
    unfold finalCell
    dsimp only
    rw [hdm, hgm, if_pos ⟨hne _ _ hd, hne _ _ hf, hne _ _ hg⟩]
  rw [this]
  unfold shown
  rw [if_neg]
  rintro (h | h)
  · rw [hin] at h; cases h
  · exact hn h

/-- C121, C123 fail for every correction with target coordinates whose missing value is not the netCDF fill value (as
PCRaster target maps): a cell without source point, where both heights are known, holds the formula applied to the
missing value as if it were data. -/
theorem missing_corrected (ne : NumExpr) (r : RunIn n m k) (f : Num → Num) (mv : ℚ)
    (hmv : r.ctrl.msgs.mv = .fin mv) (hconv : Means ne r.conversion f)
    (hone : r.ctrl.msgs.changeResolutionStep = none) (hfit : Fits r.table n) (hagg : r.ctrl.aggregate = false)
    (h : Height k) (hh : r.height = some h) (demMv gemMv : ℚ) (hdm : h.demMv = .fin demMv) (hgm : h.gemMv = .fin gemMv)
    (q : ℚ) (hq : r.mvOut = .fin q) (hq' : q ≠ 9969209968386869 * 10 ^ 21) (c : Fin k) (hc : NoSource r.table n c)
    (hin : outside r.mask c = false) (hd : h.dem.data c ≠ .fin demMv) (hg : h.gem.data c ≠ .fin gemMv) (y : ℚ)
    (hy : h.formula (h.dem.data c) (.fin q) (h.gem.data c) = .fin y) :
    ∃ files, r.pcraster ne = .ok files ∧ files.length = r.ctrl.msgs.first.length ∧
      ∀ file ∈ files, file.2 c = .fin y := by
  obtain ⟨ord, files, h1, h3, h4, h5⟩ := corrected_run_partial ne r f mv hmv hconv hone hfit hagg h hh demMv gemMv hdm hgm
  refine ⟨files, h3, by rw [h4, h1.length_eq], fun file hfile => ?_⟩
  obtain ⟨j, hj⟩ := List.mem_iff_getElem?.1 hfile
  have hlt : j < ord.length := by rw [← h4]; exact (List.getElem?_eq_some_iff.1 hj).1
  obtain ⟨name, fl, hfl, hcell⟩ := h5 j _ _ (List.getElem?_eq_getElem hlt)
  rw [hj] at hfl
  injection hfl with hfl
  rw [hfl]
  dsimp only
  rw [hcell c (.fin q) (by rw [cellOf_noSource _ _ _ _ hc, hq]) (by rw [Ne, Num.fin_inj]; exact hq') hd hg hin
    (by rw [hy]; exact fun h => by cases h), hy]

/-- C121, C123 fail for every correction where a height is unknown (target height or surface height missing): a cell
inside the clone holds 9.969209968386869e36, whatever the missing value of the clone. -/
theorem height_missing_written (ne : NumExpr) (r : RunIn n m k) (f : Num → Num) (mv : ℚ)
    (hmv : r.ctrl.msgs.mv = .fin mv) (hconv : Means ne r.conversion f)
    (hone : r.ctrl.msgs.changeResolutionStep = none) (hfit : Fits r.table n) (hagg : r.ctrl.aggregate = false)
    (h : Height k) (hh : r.height = some h) (demMv gemMv : ℚ) (hdm : h.demMv = .fin demMv) (hgm : h.gemMv = .fin gemMv)
    (c : Fin k) (hin : outside r.mask c = false) (hmiss : h.dem.data c = .fin demMv ∨ h.gem.data c = .fin gemMv) :
    ∃ files, r.pcraster ne = .ok files ∧ files.length = r.ctrl.msgs.first.length ∧
      ∀ file ∈ files, file.2 c = .fin (9969209968386869 * 10 ^ 21) := by
  have heq : ∀ q : ℚ, (Num.fin q).neb (.fin q) = false := by intro q; simp [Num.neb]
  obtain ⟨ord, files, h1, -, h3, h4, h5⟩ := plain_run ne r f mv hmv hconv hone hfit hagg
  refine ⟨files, h3, by rw [h4, h1.length_eq], fun file hfile => ?_⟩
  obtain ⟨j, hj⟩ := List.mem_iff_getElem?.1 hfile
  have hlt : j < ord.length := by rw [← h4]; exact (List.getElem?_eq_some_iff.1 hj).1
  have := h5 j _ _ (List.getElem?_eq_getElem hlt)
  rw [hj] at this
  injection this with this
  rw [this]
  dsimp only
  rw [hh]
  have : ∀ x, finalCell (some h) x c = .fin (9969209968386869 * 10 ^ 21) := by
    intro x
    unfold finalCell
    dsimp only
    rw [hdm, hgm, if_neg]
    rintro ⟨a1, -, a3⟩
    rcases hmiss with hm | hm
    · rw [hm, heq] at a1; cases a1
    · rw [hm, heq] at a3; cases a3
  rw [this]
  unfold shown
  rw [if_neg]
  rintro (h | h)
  · rw [hin] at h; cases h
  · cases h

/-! ## C122 -/

theorem interpolate_unmasked (t : Table k) (mv : Num) (v : Arr n) (a : Arr k) (h : t.interpolate mv v = .ok a) :
    ∃ d, a = Arr.plain d := by
  have inner : ∀ {α : Type} {e : Py α} {g : α → Fin k → Num}, e.map (fun x => Arr.plain (g x)) = .ok a →
      ∃ d, a = Arr.plain d := by
    intro α e g he
    cases e with
    | error _ => cases he
    | ok x => exact ⟨_, (Except.ok.inj he).symm⟩
  cases t with
  | gribNearest tbl => exact inner (g := fun x => x) h
  | gribInvdist tbl => exact inner (g := fun x => x) h
  | nearest idx => exact inner (g := fun x => cellsOf x) h
  | weighted rows => exact inner (g := fun x => cellsOf x) h

theorem render_unmasked (r : RunIn n m k) (b : Bool) (x : Field n m) (a : Arr k) (h : r.render b x = .ok a) (c : Fin k) :
    a.masked c = false := by
  have key : ∀ {n' : Nat} (t : Table k) (hh : Option (Height k)) (v : Arr n'),
      (t.interpolate r.mvOut v).map (RunIn.corrected hh) = .ok a → a.masked c = false := by
    intro n' t hh v hv
    cases hi : t.interpolate r.mvOut v with
    | error e => rw [hi] at hv; cases hv
    | ok x =>
      rw [hi] at hv
      obtain ⟨d, rfl⟩ := interpolate_unmasked t _ v x hi
      have := Except.ok.inj hv
      rw [← this]
      exact (corrected_cell hh d).1 c
  cases x with
  | inl v => exact key _ _ v h
  | inr v => exact key _ _ v h

theorem fields_sorted (ne : NumExpr) (r : RunIn n m k) (values : Dict Step (Field n m)) (change : Option Step)
    (h : r.fields ne = .ok (values, change)) : values.Pairwise fun a b => a.1.endStep ≤ b.1.endStep := by
  unfold RunIn.fields at h
  cases hc : r.conversion with
  | none =>
    rw [hc] at h
    exact (maps_in_time_order _ _ _ h).1
  | some s =>
    rw [hc] at h
    dsimp only at h
    cases ha : r.ctrl.msgs.applyConversion ne (Converter.init s r.ctrl.cutOff) with
    | error e => rw [ha] at h; cases h
    | ok msgs =>
      rw [ha] at h
      exact (maps_in_time_order _ _ _ h).1

theorem read_f8 (p : Packing) (hs : p.scale ≠ 0) (h8 : p.fmt = .f8) (v : ℚ) (hv : v ≠ p.fmt.fill * p.scale + p.offset) :
    readCell p none none (p.pack v) = some v := by
  have hp : p.pack v = (v - p.offset) / p.scale := by
    unfold Packing.pack
    rw [h8]
    rfl
  rw [readCell_eq]
  rw [hp, if_neg]
  · congr 1
    field_simp
    ring
  · rintro (h | ⟨l, h, -⟩ | ⟨l, h, -⟩)
    · apply hv
      rw [← h]
      field_simp
      ring
    · cases h
    · cases h

theorem read_int (p : Packing) (hs : p.scale ≠ 0) (h8 : p.fmt ≠ .f8) (v : ℚ)
    (hr : |Str.roundHalfEven ((v - p.offset) / p.scale)| ≤ p.fmt.maxInt)
    (hv : (Str.roundHalfEven ((v - p.offset) / p.scale) : ℚ) ≠ p.fmt.fill) :
    ∃ w, readCell p none none (p.pack v) = some w ∧ |w - v| ≤ |p.scale| / 2 := by
  have hp : p.pack v = (Str.roundHalfEven ((v - p.offset) / p.scale) : ℚ) := by
    unfold Packing.pack
    have : p.fmt.isInt = true := by
      cases h : p.fmt with
      | f8 => exact absurd h h8
      | i1 => rfl
      | i2 => rfl
      | i4 => rfl
    rw [this]
    dsimp only
    rw [if_pos rfl, if_pos hr]
  refine ⟨(Str.roundHalfEven ((v - p.offset) / p.scale) : ℚ) * p.scale + p.offset, ?_, ?_⟩
  · rw [readCell_eq]
    rw [hp, if_neg]
    rintro (h | ⟨l, h, -⟩ | ⟨l, h, -⟩)
    · exact hv h
    · cases h
    · cases h
  · have := roundHalfEven_close ((v - p.offset) / p.scale)
    have e : (Str.roundHalfEven ((v - p.offset) / p.scale) : ℚ) * p.scale + p.offset - v =
        ((Str.roundHalfEven ((v - p.offset) / p.scale) : ℚ) - (v - p.offset) / p.scale) * p.scale := by
      field_simp
      ring
    rw [e, abs_mul]
    calc _ ≤ 1 / 2 * |p.scale| := mul_le_mul_of_nonneg_right this (abs_nonneg _)
      _ = |p.scale| / 2 := by ring

/-- Map `j` of the data set, on the grid of its time. -/
theorem maps_get (ne : NumExpr) (r : RunIn n m k) (ms : List (Int × Arr k)) (values : Dict Step (Field n m))
    (change : Option Step) (hf : r.fields ne = .ok (values, change)) (h : r.maps ne = .ok ms) :
    ms.length = values.length ∧ ∀ (j : Nat) q, ms[j]? = some q → ∃ t v b, values[j]? = some (t, v) ∧
      (gridLoop change false values)[j]? = some (t, v, b) ∧ q.1 = t.endStep ∧ r.render b v = .ok q.2 := by
  unfold RunIn.maps at h
  rw [hf] at h
  dsimp only at h
  obtain ⟨l2, g2⟩ := mapM_get _ _ _ h
  have hl : ms.length = values.length := by
    rw [l2]
    unfold writeNetcdf
    rw [List.length_map, gridLoop_length]
  refine ⟨hl, fun j q hj => ?_⟩
  have hlt : j < values.length := hl ▸ (List.getElem?_eq_some_iff.1 hj).1
  obtain ⟨⟨t, v⟩, hv⟩ : ∃ x, values[j]? = some x := ⟨_, List.getElem?_eq_getElem hlt⟩
  obtain ⟨b, hb, -⟩ := gridLoop_get change values false j t v hv
  have hw : (writeNetcdf r.render change values)[j]? = some (t.endStep, r.render b v) := by
    unfold writeNetcdf
    rw [List.getElem?_map, hb]
    rfl
  have := g2 j _ _ hw hj
  dsimp only at this
  cases hx : r.render b v with
  | error e => rw [hx] at this; cases this
  | ok x =>
    rw [hx] at this
    have := Except.ok.inj this
    exact ⟨t, v, b, hv, hb, by rw [← this], by rw [hx, ← this]⟩

/-- The records stored for the maps. -/
theorem store_get (r : RunIn n m k) (p : Packing) (ms : List (Int × Arr k)) (recs : List (Int × (Fin k → ℚ)))
    (h : r.store p ms = .ok recs) : recs.length = ms.length ∧ ∀ (j : Nat) q rec, ms[j]? = some q →
      recs[j]? = some rec → rec.1 = q.1 ∧ ncWrite r.mask p (ncField r.mvOut q.2) = .ok rec.2 := by
  unfold RunIn.store at h
  split at h
  · cases h
  · obtain ⟨l2, g2⟩ := mapM_get _ _ _ h
    refine ⟨l2, fun j q rec hq hj => ?_⟩
    have := g2 j _ _ hq hj
    cases hx : ncWrite r.mask p (ncField r.mvOut q.2) with
    | error e => rw [hx] at this; cases this
    | ok x =>
      rw [hx] at this
      have := Except.ok.inj this
      rw [← this]
      exact ⟨rfl, rfl⟩

/-- Record `j` is made of map `j`, on the grid of its time. -/
theorem records_of (ne : NumExpr) (r : RunIn n m k) (p : Packing) (recs : List (Int × (Fin k → ℚ)))
    (values : Dict Step (Field n m)) (change : Option Step) (hf : r.fields ne = .ok (values, change))
    (h2 : r.netcdf ne p = .ok recs) : recs.length = values.length ∧
      ∀ (j : Nat) rec, recs[j]? = some rec → ∃ t v b, values[j]? = some (t, v) ∧
      (gridLoop change false values)[j]? = some (t, v, b) ∧ rec.1 = t.endStep ∧
      ((r.render b v).bind fun a => ncWrite r.mask p (ncField r.mvOut a)) = .ok rec.2 := by
  unfold RunIn.netcdf at h2
  cases hm : r.maps ne with
  | error e => rw [hm] at h2; cases h2
  | ok ms =>
    rw [hm] at h2
    obtain ⟨l1, g1⟩ := maps_get ne r ms values change hf hm
    obtain ⟨l2, g2⟩ := store_get r p ms recs h2
    refine ⟨l2.trans l1, fun j rec hj => ?_⟩
    have hlt : j < ms.length := l2 ▸ (List.getElem?_eq_some_iff.1 hj).1
    obtain ⟨t, v, b, hv, hb, ht, hr⟩ := g1 j _ (List.getElem?_eq_getElem hlt)
    obtain ⟨q1, q2⟩ := g2 j _ _ (List.getElem?_eq_getElem hlt) hj
    refine ⟨t, v, b, hv, hb, q1.trans ht, ?_⟩
    rw [hr]
    exact q2

/-- **C122** (the part that holds). Both output formats of the same run (any aggregation, conversion, correction, one
or two grids), when the target coordinates and the clone have the same missing value: as many netCDF records as
PCRaster files; record `j` has the end step of map `j` as time; and in a variable of format `f8` a reader finds in
every cell missing where the PCRaster file is missing, else exactly the number of the PCRaster file, unless that number
is the fill value times scale plus offset. In an integer format without valid range a reader finds a number within half
a scale unit, if the packed value is in range and not the fill value. What is missing: different missing values
(`formats_differ`). -/
theorem formats_agree_partial (ne : NumExpr) (r : RunIn n m k) (p : Packing) (hs : p.scale ≠ 0)
    (hsame : r.mvOut = r.mvClone) (files : List (Str × (Fin k → Num))) (recs : List (Int × (Fin k → ℚ)))
    (h1 : r.pcraster ne = .ok files) (h2 : r.netcdf ne p = .ok recs) :
    files.length = recs.length ∧ (recs.map (·.1)).Pairwise (· ≤ ·) ∧
    ∀ (j : Nat) file rec, files[j]? = some file → recs[j]? = some rec → ∀ c,
      (file.2 c = r.mvClone → readCell p none none (rec.2 c) = none) ∧
      ∀ v, file.2 c = .fin v → file.2 c ≠ r.mvClone →
        Spec.Storable p.fmt ((v - p.offset) / p.scale) →
        (p.fmt = .f8 → readCell p none none (rec.2 c) = some v) ∧
        (p.fmt ≠ .f8 → ∃ w, readCell p none none (rec.2 c) = some w ∧ |w - v| ≤ |p.scale| / 2) := by
  unfold RunIn.pcraster at h1
  cases hf : r.fields ne with
  | error e => rw [hf] at h1; cases h1
  | ok q =>
  obtain ⟨values, change⟩ := q
  rw [hf] at h1
  dsimp only at h1
  obtain ⟨l1, g1⟩ := mapM_get _ _ _ h1
  obtain ⟨l2, hrec⟩ := records_of ne r p recs values change hf h2
  have hl : files.length = recs.length := by
    rw [l1, l2]
    unfold writePcraster
    simp only [List.length_map, List.length_zipIdx, gridLoop_length]
  have hpw := fields_sorted ne r values change hf
  refine ⟨hl, ?_, ?_⟩
  · rw [List.pairwise_map, List.pairwise_iff_getElem]
    intro i j hi hj hij
    obtain ⟨t, v, -, hv, -, ht, -⟩ := hrec i _ (List.getElem?_eq_getElem hi)
    obtain ⟨t', v', -, hv', -, ht', -⟩ := hrec j _ (List.getElem?_eq_getElem hj)
    obtain ⟨x1, x1'⟩ := List.getElem?_eq_some_iff.1 hv
    obtain ⟨x2, x2'⟩ := List.getElem?_eq_some_iff.1 hv'
    have := List.pairwise_iff_getElem.1 hpw i j x1 x2 hij
    rw [x1', x2'] at this
    rw [ht, ht']
    exact this
  · intro j file rec hj1 hj2 c
    obtain ⟨t, v, b, hv, hb, -, hbind⟩ := hrec j rec hj2
    have hw : (writePcraster r.namePrefix r.fmap r.ext (fun b f => (r.render b f).map (pcrWrite r.mask r.mvClone))
        change values)[j]? = some (pcrName r.namePrefix r.fmap r.ext ((1 + j : Nat) : Int),
          (r.render b v).map (pcrWrite r.mask r.mvClone)) := by
      unfold writePcraster
      rw [List.getElem?_map, List.getElem?_zipIdx, hb]
      rfl
    have hfile := g1 j _ _ hw hj1
    dsimp only at hfile
    cases ha : r.render b v with
    | error e => rw [ha] at hbind; cases hbind
    | ok a =>
    rw [ha] at hbind hfile
    have hfile : file.2 = pcrWrite r.mask r.mvClone a := by
      rw [← Except.ok.inj hfile]
    have hbind : ncWrite r.mask p (ncField r.mvOut a) = .ok rec.2 := hbind
    have hm := render_unmasked r b v a ha c
    obtain ⟨w1, w2⟩ := ncWrite_stored hs hbind c
    have hcell : file.2 c = shown r.mask r.mvClone (a.data c) c := by
      rw [hfile, pcrWrite_shown _ _ _ _ hm]
    have hnc : ncField r.mvOut a c = if a.data c = r.mvOut then .nan else a.data c := by
      unfold ncField
      rw [hm]
      by_cases h : a.data c = r.mvOut
      · simp [h]
      · simp [h]
    have hread : rec.2 c = p.fmt.fill → readCell p none none (rec.2 c) = none := by
      intro h
      rw [readCell_eq]
      rw [if_pos (Or.inl h)]
    rw [hcell]
    unfold shown
    by_cases hout : outside r.mask c = true ∨ a.data c = .nan
    · have hmiss : rec.2 c = p.fmt.fill := by
        apply w1
        rcases hout with h | h
        · exact Or.inl h
        · right
          rw [hnc, h]
          split <;> rfl
      rw [if_pos hout]
      exact ⟨fun _ => hread hmiss, fun v _ h => absurd rfl h⟩
    · rw [if_neg hout]
      rw [not_or] at hout
      have hin : outside r.mask c = false := by simpa using hout.1
      refine ⟨fun h => hread (w1 (Or.inr (by rw [hnc, if_pos (by rw [h, hsame])]))), ?_⟩
      intro v hv hne hold
      have hst : rec.2 c = p.pack v := by
        apply w2 v hin
        rw [hnc, if_neg (by rw [hsame]; exact hne), hv]
      rw [hst]
      exact ⟨fun h8 => read_f8 p hs h8 v (holds_f8 h8 hold hs), fun h8 => read_int p hs h8 v (holds_int h8 hold).1 (holds_int h8 hold).2⟩

theorem render_noSource (r : RunIn n m k) (v : Arr n) (a : Arr k) (ha : r.render false (.inl v) = .ok a)
    (h1 : r.height = none) (c : Fin k) (hc : NoSource r.table n c) : a.data c = r.mvOut := by
  unfold RunIn.render at ha
  rw [h1] at ha
  dsimp only at ha
  rw [if_neg (by decide), if_neg (by decide)] at ha
  cases hi : r.table.interpolate r.mvOut v with
  | error e => rw [hi] at ha; cases ha
  | ok w =>
    have := interpolate_eq r.table r.mvOut v (interpolate_fits r.table r.mvOut v w hi)
    rw [this] at ha
    have ha := Except.ok.inj ha
    rw [← ha]
    exact cellOf_noSource r.table r.mvOut v c hc

/-- On one grid every map is of the first kind and drawn with the first table. -/
theorem single_fields (ne : NumExpr) (r : RunIn n m k) (f : Num → Num) (mv : ℚ) (hmv : r.ctrl.msgs.mv = .fin mv)
    (hconv : Means ne r.conversion f) (hone : r.ctrl.msgs.changeResolutionStep = none)
    (values : Dict Step (Field n m)) (change : Option Step) (hf : r.fields ne = .ok (values, change)) :
    ∀ (j : Nat) t v b, values[j]? = some (t, v) → (gridLoop change false values)[j]? = some (t, v, b) →
      b = false ∧ ∃ w, v = .inl w := by
  intro j t v b hv hb
  rw [fields_single ne r f mv hmv hconv hone] at hf
  cases h1 : (convertedCtrl mv f r.ctrl).firstPart with
  | error e => rw [h1] at hf; cases hf
  | ok v1 =>
    rw [h1] at hf
    have hf := Except.ok.inj hf
    have e1 := congrArg Prod.fst hf
    have e2 := congrArg Prod.snd hf
    dsimp only at e1 e2
    subst e2
    constructor
    · obtain ⟨b', hb', hiff⟩ := gridLoop_get (none : Option Step) values false j t v hv
      rw [hb] at hb'
      have : b = b' := by
        injection hb' with h
        injection h with _ h
        injection h with _ h
      rw [this]
      cases b' with
      | false => rfl
      | true =>
        rcases hiff.1 rfl with h | ⟨c, h, -⟩
        · cases h
        · cases h
    · have := List.mem_of_getElem? hv
      rw [← e1, (sortedBy_perm _ _).mem_iff, List.mem_map] at this
      obtain ⟨p, -, hp⟩ := this
      injection hp with _ hp
      exact ⟨_, hp.symm⟩

/-- C122 fails whenever the missing value of the target coordinates is another number than that of the clone: in
every run on one grid (any aggregation, without correction), a cell inside the clone without source point is
missing in every netCDF record and a number in every PCRaster file. -/
theorem formats_differ (ne : NumExpr) (r : RunIn n m k) (f : Num → Num) (mv : ℚ) (hmv : r.ctrl.msgs.mv = .fin mv)
    (hconv : Means ne r.conversion f) (hone : r.ctrl.msgs.changeResolutionStep = none) (p : Packing) (hs : p.scale ≠ 0)
    (q : ℚ) (hq : r.mvOut = .fin q) (hdiff : r.mvClone ≠ .fin q) (hcorr : r.height = none) (c : Fin k)
    (hc : NoSource r.table n c) (hin : outside r.mask c = false) (files : List (Str × (Fin k → Num))) (recs : List (Int × (Fin k → ℚ)))
    (h1 : r.pcraster ne = .ok files) (h2 : r.netcdf ne p = .ok recs) :
    (∀ file ∈ files, file.2 c = .fin q ∧ file.2 c ≠ r.mvClone) ∧
    ∀ rec ∈ recs, readCell p none none (rec.2 c) = none := by
  cases hf : r.fields ne with
  | error e =>
    unfold RunIn.pcraster at h1
    rw [hf] at h1
    cases h1
  | ok w =>
  obtain ⟨values, change⟩ := w
  refine ⟨fun file hfile => ?_, fun rec hrec => ?_⟩
  · unfold RunIn.pcraster at h1
    rw [hf] at h1
    dsimp only at h1
    obtain ⟨l1, g1⟩ := mapM_get _ _ _ h1
    obtain ⟨j, hj⟩ := List.mem_iff_getElem?.1 hfile
    have hlt : j < values.length := by
      have := (List.getElem?_eq_some_iff.1 hj).1
      rw [l1] at this
      unfold writePcraster at this
      simpa only [List.length_map, List.length_zipIdx, gridLoop_length] using this
    obtain ⟨⟨t, v⟩, hv⟩ : ∃ x, values[j]? = some x := ⟨_, List.getElem?_eq_getElem hlt⟩
    obtain ⟨b, hb, -⟩ := gridLoop_get change values false j t v hv
    obtain ⟨rfl, w, rfl⟩ := single_fields ne r f mv hmv hconv hone values change hf j t v b hv hb
    have hw : (writePcraster r.namePrefix r.fmap r.ext (fun b f => (r.render b f).map (pcrWrite r.mask r.mvClone))
        change values)[j]? = some (pcrName r.namePrefix r.fmap r.ext ((1 + j : Nat) : Int),
          (r.render false (.inl w)).map (pcrWrite r.mask r.mvClone)) := by
      unfold writePcraster
      rw [List.getElem?_map, List.getElem?_zipIdx, hb]
      rfl
    have hfile := g1 j _ _ hw hj
    dsimp only at hfile
    cases ha : r.render false (.inl w) with
    | error e => rw [ha] at hfile; cases hfile
    | ok a =>
    rw [ha] at hfile
    have hfile : file.2 = pcrWrite r.mask r.mvClone a := by
      rw [← Except.ok.inj hfile]
    have hcell : file.2 c = .fin q := by
      rw [hfile, pcrWrite_shown _ _ _ _ (render_unmasked r false _ a ha c), render_noSource r w a ha hcorr c hc, hq]
      unfold shown
      rw [if_neg]
      rintro (h | h)
      · rw [hin] at h; cases h
      · cases h
    rw [hcell]
    exact ⟨rfl, fun h => hdiff h.symm⟩
  · obtain ⟨j, hj⟩ := List.mem_iff_getElem?.1 hrec
    obtain ⟨t, v, b, hv, hg, -, hb⟩ := (records_of ne r p recs values change hf h2).2 j rec hj
    obtain ⟨rfl, w, rfl⟩ := single_fields ne r f mv hmv hconv hone values change hf j t v b hv hg
    cases ha : r.render false (.inl w) with
    | error e => rw [ha] at hb; cases hb
    | ok a =>
    rw [ha] at hb
    have hb : ncWrite r.mask p (ncField r.mvOut a) = .ok rec.2 := hb
    have hmiss : rec.2 c = p.fmt.fill := by
      refine (ncWrite_stored hs hb c).1 (Or.inr ?_)
      unfold ncField
      rw [render_noSource r w a ha hcorr c hc, render_unmasked r false _ a ha c]
      simp
    rw [readCell_eq]
    rw [if_pos (Or.inl hmiss)]

namespace Demo

/-- no aggregation; the second point is masked in both messages. -/
def maskMsgs : MsgSet 2 1 :=
  ⟨[(⟨0, 12, 640, 6, 0⟩, ⟨fun i => .fin (if i = 0 then 5 else 9999), some fun i => decide (i = 1)⟩),
    (⟨0, 6, 640, 6, 0⟩, ⟨fun i => .fin (if i = 0 then 2 else 9999), some fun i => decide (i = 1)⟩)], [], .fin 9999,
    ⟨"g".toList, 640, none⟩, ⟨0, 6, 640, 6, 0⟩⟩

/-- point 0, masked point, outside the clone, no point; one missing value. -/
def maskRun : RunIn 2 1 4 where
  ctrl := ⟨maskMsgs, false, none, "accumulation", false, false, 6, 6, "accum", "accum", 0, 12, false⟩
  conversion := some (some "x=x*2".toList)
  table := .gribNearest [(0, 0), (1, 1), (2, 0)]
  table2 := .gribNearest []
  mvOut := .fin (-9999)
  height := none
  height2 := none
  mask := some fun c => decide (c = 2)
  mvClone := .fin (-9999)
  namePrefix := "pr".toList
  fmap := 1
  ext := 1

/-- heights: known, known, known, target height missing. -/
def maskHeight : Height 4 where
  formula := fun z p g => p + (z + g)
  dem := ⟨fun c => if c = 3 then .fin (-1) else .fin 100, none⟩
  gem := ⟨fun _ => .fin 10, none⟩
  demMv := .fin (-1)
  gemMv := .fin (-2)

/-- packing of the netCDF variable: tenths in two bytes. -/
def maskPacking : Packing := ⟨.i2, 1 / 10, 0, fun _ => 0⟩

end Demo

/-- C121: masked point, outside and no point are missing. -/
example : Demo.maskRun.pcraster Demo.runNe = .ok
    [("pr000000.001".toList, fun c => if c = 0 then .fin 4 else .fin (-9999)),
     ("pr000000.002".toList, fun c => if c = 0 then .fin 10 else .fin (-9999))] := by
  decide +kernel

example : NoSource Demo.maskRun.table 2 3 ∧ GribTable Demo.maskRun.table ∧
    ∀ p ∈ Demo.maskMsgs.first, AllMasked Demo.maskRun.table p.2 1 := by
  refine ⟨by unfold NoSource Demo.maskRun; decide, Or.inl ⟨_, rfl⟩, fun p hp => ⟨(1, 1), by decide, ?_⟩⟩
  unfold Demo.maskMsgs at hp
  simp only [List.mem_cons, List.not_mem_nil, or_false] at hp
  rcases hp with rfl | rfl <;> decide

/-- C121 fails: another missing value of the clone. -/
example : ({ Demo.maskRun with mvClone := .fin (-1) } : RunIn 2 1 4).pcraster Demo.runNe = .ok
    [("pr000000.001".toList, fun c => if c = 0 then .fin 4 else if c = 2 then .fin (-1) else .fin (-9999)),
     ("pr000000.002".toList, fun c => if c = 0 then .fin 10 else if c = 2 then .fin (-1) else .fin (-9999))] := by
  decide +kernel

/-- C121 fails: a table of a search tree writes 9999, the number under the mask. -/
example : ({ Demo.maskRun with table := .nearest fun c => if c = 3 then 2 else if c = 1 then 1 else 0 } :
      RunIn 2 1 4).pcraster Demo.runNe = .ok
    [("pr000000.001".toList, fun c => if c = 0 then .fin 4 else if c = 1 then .fin 9999 else .fin (-9999)),
     ("pr000000.002".toList, fun c => if c = 0 then .fin 10 else if c = 1 then .fin 9999 else .fin (-9999))] := by
  decide +kernel

/-- C123: corrected where the heights are known; a masked point is corrected too (-9999 + 110), and the cell without
height holds the netCDF fill value. -/
example : ({ Demo.maskRun with height := some Demo.maskHeight } : RunIn 2 1 4).pcraster Demo.runNe = .ok
    [("pr000000.001".toList, fun c => if c = 0 then .fin 114 else if c = 1 then .fin (-9889) else if c = 2 then
        .fin (-9999) else .fin (9969209968386869 * 10 ^ 21)),
     ("pr000000.002".toList, fun c => if c = 0 then .fin 120 else if c = 1 then .fin (-9889) else if c = 2 then
        .fin (-9999) else .fin (9969209968386869 * 10 ^ 21))] := by
  decide +kernel

/-- C122: the netCDF records of the run. -/
example : Demo.maskRun.netcdf Demo.runNe Demo.maskPacking = .ok
    [(6, fun c => if c = 0 then 40 else -32767), (12, fun c => if c = 0 then 100 else -32767)] := by
  decide +kernel

example : (readCell Demo.maskPacking none none 40, readCell Demo.maskPacking none none (-32767)) = (some 4, none) := by
  decide +kernel

end PyG2P
