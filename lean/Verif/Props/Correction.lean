import Verif.Model.Correction
import Verif.Model.TableApply
import Verif.Lemmas.Py
import Verif.Props.Average

/-! # C20, C21 (correction) and C80 (missing values in aggregation) -/

namespace PyG2P
open Corrector Spec Aggregator
variable {n : Nat}

/-- C20 (partial: "missing" is read as equal to the number the code compares with — the netCDF default
fill value for the field, the GRIB missing value for the geopotential; see `C20_gem_missing_used`):
the corrected cell is the formula where field, DEM and geopotential are all valid, the missing value
where any of them is missing, and masked exactly where the field is masked. -/
theorem C20_correction_partial (formula : NumExpr3) (dem gem p : Arr n) (demMv gemMv mv : ℚ) (i : Fin n) :
    let r := correct formula dem gem p (.fin demMv) (.fin gemMv) (.fin mv)
    (dem.data i ≠ .fin demMv → p.data i ≠ .fin mv → gem.data i ≠ .fin gemMv →
      r.data i = formula (dem.data i) (p.data i) (gem.data i)) ∧
    (dem.data i = .fin demMv ∨ p.data i = .fin mv ∨ gem.data i = .fin gemMv → r.data i = .fin mv) ∧
    r.masked i = p.masked i := by
  have hne : ∀ (x : Num) (q : ℚ), x ≠ .fin q → x.neb (.fin q) = true := by
    intro x q h
    cases x with
    | nan => rfl
    | fin a => simpa [Num.neb] using h
  have heq : ∀ q : ℚ, (Num.fin q).neb (.fin q) = false := by intro q; simp [Num.neb]
  refine ⟨?_, ?_, ?_⟩
  · intro h1 h2 h3
    simp [correct, Arr.maskedWhere, hne _ _ h1, hne _ _ h2, hne _ _ h3]
  · intro h
    simp only [correct, Arr.maskedWhere]
    rw [if_neg]
    rcases h with h | h | h <;> simp [h, heq]
  · simp only [correct, Arr.maskedWhere, Arr.masked, Arr.getMasks]
    cases p.mask <;> rfl

example : (correct (n := 2) (fun d p g => p + (d - g)) ⟨fun _ => .fin 5, none⟩ ⟨fun _ => .fin 2, none⟩
      ⟨fun i => if i = 0 then .fin 10 else .fin 999, some fun i => decide (i = 1)⟩ (.fin 0) (.fin 9999) (.fin 999)) =
    ⟨fun i => if i = 0 then .fin 13 else .fin 999, some fun i => decide (i = 1)⟩ := by decide +kernel

/-- C20 is false where the target cell is outside the geopotential grid: the interpolated geopotential
holds the target's missing value there, the code compares with the GRIB missing value, and the cell is
"corrected" with the missing value as if it were a height. -/
theorem C20_gem_missing_used : ∃ (z : Arr 1) (gribMv mvOut : Num) (g : Fin 1 → Num) (r : Arr 1),
    -- the only target cell is not in the interpolation table
    TableApply.gribNearest (gemOnGrib (fun x => x / .fin 10) z gribMv) mvOut [] = .ok g ∧ g 0 = mvOut ∧
    correct (fun d p g => p + (d - g)) ⟨fun _ => .fin 5, none⟩ ⟨g, none⟩ ⟨fun _ => .fin 10, none⟩
      (.fin (-1)) gribMv mvOut = r ∧ r.data 0 ≠ mvOut ∧ r.masked 0 = false :=
  ⟨⟨fun _ => .fin 100, none⟩, .fin 9999, .fin (-5000), fun _ => .fin (-5000),
    correct (fun d p g => p + (d - g)) ⟨fun _ => .fin 5, none⟩ ⟨fun _ => .fin (-5000), none⟩
      ⟨fun _ => .fin 10, none⟩ (.fin (-1)) (.fin 9999) (.fin (-5000)),
    by decide +kernel, by decide +kernel, by rfl, by decide +kernel, by decide +kernel⟩

/-- C20 (surface height of the model): the geopotential is turned into a height where it is valid, stays the
GRIB missing value where it is missing, and keeps its mask. -/
theorem C20_surface_height (gemFormula : Num → Num) (z : Arr n) (gribMv : ℚ) (i : Fin n) :
    (z.data i ≠ .fin gribMv → (gemOnGrib gemFormula z (.fin gribMv)).data i = gemFormula (z.data i)) ∧
    (z.data i = .fin gribMv → (gemOnGrib gemFormula z (.fin gribMv)).data i = .fin gribMv) ∧
    (gemOnGrib gemFormula z (.fin gribMv)).masked i = z.masked i := by
  refine ⟨fun h => ?_, fun h => ?_, rfl⟩
  · have hne : (z.data i).neb (.fin gribMv) = true := by
      cases hz : z.data i with
      | nan => rfl
      | fin a => rw [hz] at h; simpa [Num.neb] using h
    simp [gemOnGrib, hne]
  · simp [gemOnGrib, h, Num.neb]

example : (gemOnGrib (n := 2) (fun x => x / .fin 10) ⟨fun i => if i = 0 then .fin 100 else .fin 9999, none⟩
      (.fin 9999)) = ⟨fun i => if i = 0 then .fin 10 else .fin 9999, none⟩ := by decide +kernel

/-- What a run should obtain: a corrector built from its own settings. -/
def Spec.OwnSettings {C : Type} (build : Settings → Py C) (ss : List Settings) (res : List (Py C)) : Prop :=
  res = ss.map build

theorem session_eq {C : Type} (build : Settings → Py C) (ss : List Settings) (d : Dict Str C)
    (hd : ∀ s ∈ ss, ∀ c, Dict.get? d (key s) = some c → build s = .ok c)
    (hss : ∀ s ∈ ss, ∀ s' ∈ ss, s.gridId ++ s.demMap = s'.gridId ++ s'.demMap → build s = build s') :
    session build d ss = ss.map build := by
  induction ss generalizing d with
  | nil => rfl
  | cons s ss ih =>
    have hss' : ∀ a ∈ ss, ∀ b ∈ ss, a.gridId ++ a.demMap = b.gridId ++ b.demMap → build a = build b :=
      fun a ha b hb => hss a (by simp [ha]) b (by simp [hb])
    unfold session getInstance
    cases hg : Dict.get? d (key s) with
    | some c =>
      simp only [List.map_cons, hd s (by simp) c hg]
      rw [ih d (fun a ha => hd a (by simp [ha])) hss']
    | none =>
      cases hb : build s with
      | error e =>
        simp only [List.map_cons, hb]
        exact congrArg _ (ih d (fun a ha => hd a (by simp [ha])) hss')
      | ok c =>
        simp only [List.map_cons, hb]
        refine congrArg _ (ih _ ?_ hss')
        intro a ha c' hc'
        rw [Dict.get?_set] at hc'
        split_ifs at hc' with hk
        · cases hc'
          rw [← hb]; exact hss a (by simp [ha]) s (by simp) hk.symm
        · exact hd a (by simp [ha]) c' hc'

/-- C21 (partial: runs sharing grid and DEM must agree on the remaining settings): in one process, whatever
the history of runs, each run obtains the corrector of its own settings — or its own error — provided
runs with the same grid and DEM text have the same settings. -/
theorem C21_settings_partial {C : Type} (build : Settings → Py C) (ss : List Settings)
    (hss : ∀ s ∈ ss, ∀ s' ∈ ss, s.gridId ++ s.demMap = s'.gridId ++ s'.demMap → s = s') :
    OwnSettings build ss (session build [] ss) :=
  session_eq build ss [] (by intro s _ c h; cases h)
    (fun s hs s' hs' h => congrArg build (hss s hs s' hs' h))

def Demo.set1 : Settings := ⟨"g".toList, "dem.map".toList, "geo.grb".toList, "p+gem-dem".toList,
  "z*0.1".toList, "lat".toList, "lon".toList, "nearest".toList⟩
def Demo.set2 : Settings := { Demo.set1 with formula := "p*2".toList }
def Demo.set3 : Settings := { Demo.set1 with latMap := "lat2".toList }

/-- Non-vacuity: two different grids alternate in one process. -/
example : let s2 := { Demo.set1 with gridId := "h".toList }
    let ss := [Demo.set1, s2, Demo.set1]
    (∀ s ∈ ss, ∀ s' ∈ ss, s.gridId ++ s.demMap = s'.gridId ++ s'.demMap → s = s') ∧
    session (fun s => (.ok s : Py Settings)) [] ss = [.ok Demo.set1, .ok s2, .ok Demo.set1] := by
  decide +kernel

/-- C21 is false in general: the second run in a process, with the same grid and DEM but another formula
or another target grid, gets the first run's corrector. -/
theorem C21_stale : ∃ s1 s2 s3 : Settings, s2.formula ≠ s1.formula ∧ s3.latMap ≠ s1.latMap ∧
    session (fun s => (.ok s : Py Settings)) [] [s1, s2, s3] = [.ok s1, .ok s1, .ok s1] :=
  ⟨Demo.set1, Demo.set2, Demo.set3, by decide +kernel, by decide +kernel, by decide +kernel⟩

/-- C80 is false: two messages whose cell is the GRIB missing value (9999) accumulate to the valid-looking
value 0, and a missing and a valid value average to a number that is neither missing nor in the range of
the valid ones. -/
theorem C80_missing_lost : ∃ (ms : Messages 1) (a b : Arr 1), (∀ p ∈ ms.take 2, p.2.data 0 = .fin 9999) ∧
    (Demo.acc 12 12 6).doManipulation (ms.take 2) = .ok [(⟨6, 12, 640, 6, 0⟩, a)] ∧ a.data 0 = .fin 0 ∧
    a.masked 0 = false ∧
    (Demo.avg 12 12 12).doManipulation ms = .ok [(⟨0, 12, 640, 12, 0⟩, b)] ∧
    b.data 0 = .fin ((9999 + 1) / 2) ∧ b.masked 0 = false :=
  ⟨[Demo.msg 6 (Demo.f 9999), Demo.msg 12 (Demo.f 9999), Demo.msg 12 (Demo.f 1)],
    Arr.maskedWhere none fun _ => .fin 0, Arr.maskedWhere none fun _ => .fin ((9999 + 1) / 2),
    by decide +kernel, by decide +kernel, by decide +kernel, by decide +kernel, by decide +kernel,
    by decide +kernel, by decide +kernel⟩

theorem sum_nan {α : Type} (l : List α) (f : α → Num) (a : α) (ha : a ∈ l) (hf : f a = .nan) :
    (l.map f).sum = .nan := by
  induction l with
  | nil => cases ha
  | cons b l ih =>
    rw [List.map_cons, List.sum_cons]
    rcases List.mem_cons.1 ha with rfl | ha
    · rw [hf, Num.nan_add]
    · rw [ih ha, Num.add_nan]

/-- C80 (partial: only a missing value carried as NaN, and only the plain average, is safe): if the field
valid at one of the hours of an averaging interval is NaN in a cell, so is the average. -/
theorem C80_nan_survives_partial (ag : Aggregator) (ms : Messages n) (out : Dict Step (Arr n))
    (htype : ag.aggrType = "average") (hs : 0 < ag.aggrStep) (h2 : ag.secondTRes = false)
    (hh : ag.halfweights = false) (hrun : ag.doManipulation ms = .ok out) :
    ∃ first, ms.head? = some first ∧
      ∀ s, AvgStart ag.start ag.end_ ag.aggrStep s →
      ∃ m, Dict.get? out (avgKey ag.aggrStep first.1.resolution first.1.level s) = some m ∧
        ∀ h, s < h → h ≤ s + ag.aggrStep → ∀ v, ValidAt ms h v → ∀ i, v.data i = .nan → m.data i = .nan := by
  obtain ⟨first, hf, H⟩ := C08_average_value ag ms out htype hs h2 hh hrun
  refine ⟨first, hf, fun s hs' => ?_⟩
  obtain ⟨m, F, hm, hF, hd⟩ := H s hs'
  refine ⟨m, hm, fun h h1 h2 v hv i hi => ?_⟩
  have hvF := ValidAt_unique hv (hF h h1 h2)
  rw [hd i]
  rw [sum_nan _ _ (h - s - 1).toNat]
  · exact Num.nan_div _
  · rw [List.mem_range]; omega
  · have : s + 1 + (((h - s - 1).toNat : Nat) : Int) = h := by omega
    rw [this, ← hvF, hi]

/-- Non-vacuity: the second hour is NaN. -/
example : (Demo.avg 2 2 2).doManipulation [Demo.msg 1 (Demo.f 3), Demo.msg 2 ⟨fun _ => .nan, none⟩] =
    .ok [(⟨0, 2, 640, 2, 0⟩, ⟨fun _ => .nan, some fun _ => false⟩)] := by decide +kernel

end PyG2P
