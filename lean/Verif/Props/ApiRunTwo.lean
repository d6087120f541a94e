import Verif.Props.NetcdfTwo
import Verif.Props.ApiRun

/-! # API runs with two input files — src/pyg2p/main/api.py 118-119, 286-315 -/

namespace PyG2P
open Spec TableApply Converter Aggregator Reader
variable {n m k : Nat}

theorem settings_two_nodup (x : FileIn n k) (y : SecondFile m) (r : RunIn n m k) (h : x.settingsTwo y = .ok r) :
    (Dict.keys r.ctrl.msgs.first).Nodup ∧ r.mask = x.mask ∧ r.mvClone = x.mvClone := by
  unfold FileIn.settingsTwo at h
  split at h
  · cases h
  · dsimp only at h
    split at h
    · cases h
    · rename_i s r2 hs
      split at h
      · cases h
      · split at h
        · cases h
        · rename_i msgs hm
          split at h
          · cases h
          · rename_i msgs2 hm2
            rw [← Except.ok.inj h]
            refine ⟨?_, rfl, rfl⟩
            show (Dict.keys msgs.first).Nodup
            unfold MsgSet.init at hm
            obtain ⟨f, -, hm⟩ := bind_ok_iff.1 hm
            rw [← Except.ok.inj hm]
            exact select_nodup _ _ _ _ _ hs

/-- **C183**: an API run with a second file fails exactly when the command does, with the same error. -/
theorem api_two_fails_as_command (ne : NumExpr) (x : FileIn n k) (y : SecondFile m)
    (hh : ∀ a, x.aggr = some a → a.halfweights = false) (e : PyErr) :
    x.apiMapsTwo ne y = .error e ↔ x.pcrasterTwo ne y = .error e := by
  unfold FileIn.apiMapsTwo FileIn.pcrasterTwo
  rw [withoutHalf_eq hh]
  cases hset : x.settingsTwo y with
  | error e' => exact ⟨fun h => by exact congrArg Except.error (Except.error.inj h),
      fun h => by exact congrArg Except.error (Except.error.inj h)⟩
  | ok r => exact run_api_fails ne r (settings_two_nodup x y r hset).1 e

/-- **C183**: if the command writes PCRaster maps, the API run returns the same, under steps whose ends are the times of
the data set of the same command with netCDF output. -/
theorem api_two_as_command (ne : NumExpr) (x : FileIn n k) (y : SecondFile m)
    (hh : ∀ a, x.aggr = some a → a.halfweights = false) (files : List (Str × (Fin k → Num)))
    (h : x.pcrasterTwo ne y = .ok files) :
    ∃ out, x.apiMapsTwo ne y = .ok out ∧ SameMaps x.mask x.mvClone out files ∧
      ∀ r ms, x.settingsTwo y = .ok r → r.maps ne = .ok ms → ms.map (·.1) = out.map (·.1.endStep) := by
  unfold FileIn.pcrasterTwo at h
  unfold FileIn.apiMapsTwo
  rw [withoutHalf_eq hh]
  cases hset : x.settingsTwo y with
  | error e => rw [hset] at h; cases h
  | ok r =>
    rw [hset] at h
    obtain ⟨hn, h4, h5⟩ := settings_two_nodup x y r hset
    obtain ⟨out, h1, h2, h3⟩ := run_api_as_pcraster ne r hn files h
    rw [h4, h5] at h2
    exact ⟨out, h1, h2, fun r' ms hr' => by rw [← Except.ok.inj hr']; exact h3 ms⟩

/-- **C183 is violated** with half weights: an API run returns the maps of the command without them. -/
theorem api_two_half_weights (ne : NumExpr) (x : FileIn n k) (y : SecondFile m) (a : AggrOpts) (ha : x.aggr = some a) :
    x.apiMapsTwo ne y = ({ x with aggr := some { a with halfweights := false } } : FileIn n k).apiMapsTwo ne y := by
  unfold FileIn.apiMapsTwo FileIn.withoutHalf
  rw [ha]
  rfl

/-- The times of the maps of a run on two files. -/
theorem api_two_intervals (ne : NumExpr) (x : FileIn n k) (y : SecondFile m) (f : Num → Num) (mv : ℚ)
    (hidx : x.indexable = true) (hidx2 : y.indexable = true)
    (hup : x.sel.shortName.map Char.toUpper ≠ x.sel.shortName) (ao : AggrOpts) (hagg : x.aggr = some ao)
    (hh : ao.halfweights = false)
    (a : Int) (ha : ao.step = a) (hpos : 0 < a)
    (E : Int) (hE : LastStep x.file x.sel E) (hreg : StepsDiffer x.file x.sel) (start hi : Int)
    (hst : start = x.tstart.getD 0) (hty : Intervals ao.type start) (hhi : hi = windowEnd x.tend E)
    (sel : List (GMsg (Arr n))) (hsel : sel = taken x.file x.sel (max 0 (start - a)) hi) (hne : sel ≠ [])
    (sel2 : List (GMsg (Arr m))) (hsel2 : sel2 = taken y.file x.sel (max 0 (start - a)) hi)
    (nj : Int) (hnj : ∀ q ∈ sel, q.nj = nj) (hdiff : (sel.map GMsg.endStep).Nodup)
    (nj2 : Int) (hnj2 : ∀ q ∈ sel2, q.nj = nj2) (hdiff2 : (sel2.map GMsg.endStep).Nodup)
    (hmv : ∀ q ∈ sel, q.missingValue = .fin mv) (hdate : ∀ q ∈ sel, (reference q).isSome = true)
    (hdate2 : ∀ q ∈ sel2, (reference q).isSome = true) (hconv : Means ne x.conversion f)
    (c : GMsg (Arr m)) (hc : c ∈ sel2) (hcmin : ∀ q ∈ sel2, c.endStep ≤ q.endStep)
    (hse : c.startStep ≤ c.endStep) (h0 : 0 ≤ c.endStep) (hend : c.endStep + a < hi)
    (files : List (Str × (Fin k → Num))) (hrun : x.bare.pcrasterTwo ne y = .ok files) {n1 n2 : Nat}
    (h1 : ∀ j : Nat, j < n1 ↔ firstEnd start a + j * a ≤ c.startStep)
    (h2 : ∀ j : Nat, j < n2 ↔ c.endStep + a + j * a ≤ hi) :
    ∃ out, x.apiMapsTwo ne y = .ok out ∧ (out.map (·.1)).Nodup ∧ out.length = files.length ∧
      (∀ (j : Nat) t, (out[j]?).map (·.1.endStep) = some t ↔
        (j < n1 ∧ t = firstEnd start a + j * a) ∨ ∃ i : Nat, j = n1 + i ∧ i < n2 ∧ t = c.endStep + a + i * a) ∧
      ∀ (j : Nat) p file, out[j]? = some p → files[j]? = some file →
        ∀ i, p.2 i = if outside x.mask i = true then x.mvClone else file.2 i := by
  obtain ⟨info, t2, msgs, msgs2, ms, ms2, hs, hrs, hre, -, hmvs, -, -, -, -, hcs1, hcs2⟩ :=
    two_file_settings x y mv hidx hidx2 hup ao hagg a ha E hE hreg start hi hst hhi sel hsel hne sel2 hsel2 nj hnj hdiff
      nj2 hnj2 hdiff2 hmv hdate hdate2 c hc hcmin
  change (x.assemble info t2 (msgs.append2nd msgs2)).ctrl.start = start at hrs
  change (x.assemble info t2 (msgs.append2nd msgs2)).ctrl.end_ = hi at hre
  have hn := (settings_two_nodup x y _ hs).1
  unfold FileIn.pcrasterTwo at hrun
  rw [bare_settings_two, hs] at hrun
  obtain ⟨values, change, out, hf, hout, hkeys, hnd, hlo, hcell⟩ := run_of_bare ne _ hn files hrun
  have htimes := two_times ne (x.assemble info t2 (msgs.append2nd msgs2)) f mv hmvs hconv msgs2.firstStep rfl
    (by rw [hcs1, hcs2]; exact hse) (by rw [hcs2]; exact h0)
    (by show x.aggr.isSome = true; rw [hagg]; rfl) a
    (by show x.aggr.map AggrOpts.step = some a; rw [hagg, ← ha]; rfl) hpos
    (by
      rw [hrs]
      show Intervals ((x.aggr.map AggrOpts.type).getD "") start
      rw [hagg]
      exact hty)
    (by rw [hcs2, hre]; exact hend) values change hf
  rw [hrs, hre, hcs1, hcs2] at htimes
  have hends : out.map (·.1.endStep) = rangeList (firstEnd start a) (c.startStep + 1) a ++
      rangeList (c.endStep + a) (hi + 1) a := by
    rw [← htimes]
    have := congrArg (List.map Step.endStep) hkeys
    rw [List.map_map] at this
    unfold Dict.keys at this
    rw [List.map_map] at this
    exact this
  refine ⟨out, ?_, by rw [hkeys]; exact hnd, hlo, fun j t => ?_, hcell⟩
  · unfold FileIn.apiMapsTwo
    rw [withoutHalf_eq fun b h => by rw [hagg] at h; rw [← Option.some.inj h]; exact hh, hs]
    exact hout
  · rw [← List.getElem?_map, hends]
    exact (two_times_get hpos h1 h2).2.2 j t

/-- **C183**, accumulation. As C137: one map for each interval, first those of the first file, then those of the second,
under steps with their ends, with the cells of C137; outside the clone the missing value of the clone. -/
theorem api_two_accumulation_run (ne : NumExpr) (x : FileIn n k) (y : SecondFile m) (f : Num → Num) (mv : ℚ)
    (hidx : x.indexable = true) (hidx2 : y.indexable = true)
    (hup : x.sel.shortName.map Char.toUpper ≠ x.sel.shortName) (ao : AggrOpts) (hagg : x.aggr = some ao)
    (hty : ao.type = "accumulation") (hh : ao.halfweights = false) (a : Int) (ha : ao.step = a) (hpos : 0 < a)
    (E : Int) (hE : LastStep x.file x.sel E) (hreg : StepsDiffer x.file x.sel) (start hi : Int)
    (hst : start = x.tstart.getD 0) (hhi : hi = windowEnd x.tend E)
    (sel : List (GMsg (Arr n))) (hsel : sel = taken x.file x.sel (max 0 (start - a)) hi) (hne : sel ≠ [])
    (sel2 : List (GMsg (Arr m))) (hsel2 : sel2 = taken y.file x.sel (max 0 (start - a)) hi)
    (nj : Int) (hnj : ∀ q ∈ sel, q.nj = nj) (hdiff : (sel.map GMsg.endStep).Nodup)
    (nj2 : Int) (hnj2 : ∀ q ∈ sel2, q.nj = nj2) (hdiff2 : (sel2.map GMsg.endStep).Nodup)
    (hmv : ∀ q ∈ sel, q.missingValue = .fin mv) (hdate : ∀ q ∈ sel, (reference q).isSome = true)
    (hdate2 : ∀ q ∈ sel2, (reference q).isSome = true) (hconv : Means ne x.conversion f)
    (hfit : Fits x.table n) (hfit2 : Fits x.table2 m)
    (c : GMsg (Arr m)) (hc : c ∈ sel2) (hcmin : ∀ q ∈ sel2, c.endStep ≤ q.endStep)
    (hse : c.startStep ≤ c.endStep) (h0 : 0 ≤ c.endStep) (hend : c.endStep + a < hi)
    (hcur : ∀ t, InRange (firstEnd start a) c.startStep a t →
      (∃ q ∈ sel, q.endStep = t) ∧ (t - a = 0 ∨ ∃ q ∈ sel, q.endStep = t - a))
    (hcur2 : ∀ t, InRange (c.endStep + a) hi a t →
      (∃ q ∈ sel2, q.endStep = t) ∧ (t - a = 0 ∨ ∃ q ∈ sel2, q.endStep = t - a)) :
    ∃ out n1 n2, x.apiMapsTwo ne y = .ok out ∧ out.length = n1 + n2 ∧ (out.map (·.1)).Nodup ∧
      (∀ j : Nat, j < n1 ↔ firstEnd start a + j * a ≤ c.startStep) ∧
      (∀ j : Nat, j < n2 ↔ c.endStep + a + j * a ≤ hi) ∧
      (∀ (j : Nat) t, t = firstEnd start a + j * a → t ≤ c.startStep →
        ∃ p, out[j]? = some p ∧ p.1.endStep = t ∧
        ∃ D, AccumulatedFrom mv f sel ao.forceZero x.unitTime a t D ∧ ∀ i, p.2 i = if outside x.mask i = true then x.mvClone else
          finalCell x.height (cellOf x.table x.mvOut (Spec.cutField (x.conversion.isSome && x.cutOff) D) i) i) ∧
      ∀ (j : Nat) t, t = c.endStep + a + j * a → t ≤ hi →
        ∃ p, out[n1 + j]? = some p ∧ p.1.endStep = t ∧
        ∃ D, AccumulatedFrom mv f sel2 ao.forceZero x.unitTime a t D ∧ ∀ i, p.2 i = if outside x.mask i = true then x.mvClone else
          finalCell x.height2 (cellOf x.table2 x.mvOut (Spec.cutField (x.conversion.isSome && x.cutOff) D) i) i := by
  obtain ⟨files, n1, n2, g1, g2, g3, g4, g5, g6⟩ := two_file_accumulation_run ne x.bare y f mv hidx hidx2 hup ao hagg hty a
    ha hpos E hE hreg start hi hst hhi sel hsel hne sel2 hsel2 nj hnj hdiff nj2 hnj2 hdiff2 hmv
    hdate hdate2 hconv hfit hfit2 c hc hcmin hse h0 hend hcur hcur2
  obtain ⟨out, e0, e1, e2, e3, e4⟩ := api_two_intervals ne x y f mv hidx hidx2 hup ao hagg hh a ha hpos E hE
    hreg start hi hst (Or.inl hty) hhi sel hsel hne sel2 hsel2 nj hnj hdiff nj2 hnj2 hdiff2 hmv hdate hdate2 hconv c hc
    hcmin hse h0 hend files g1 g3 g4
  refine ⟨out, n1, n2, e0, e2.trans g2, e1, g3, g4, ?_, ?_⟩
  · intro j t ht hle
    obtain ⟨D, hD, hf⟩ := g5 j t ht hle
    have hjo : j < out.length := by
      rw [e2]; exact (List.getElem?_eq_some_iff.1 hf).1
    have ho : out[j]? = some out[j] := List.getElem?_eq_getElem hjo
    refine ⟨_, ho, ?_, D, hD, fun i => ?_⟩
    · rcases (e3 (j) _).1 (by rw [ho]; rfl) with ⟨hj, h⟩ | ⟨i, hj, hi', h⟩
      · exact h.trans ht.symm
      · have := (g3 j).2 (by rw [← ht]; exact hle); omega
    · rw [e4 (j) _ _ ho hf i]
      dsimp only
      change (if _ then _ else shown none .nan _ i) = _
      rw [shown_bare]
      rfl
  · intro j t ht hle
    obtain ⟨D, hD, hf⟩ := g6 j t ht hle
    have hjo : n1 + j < out.length := by
      rw [e2]; exact (List.getElem?_eq_some_iff.1 hf).1
    have ho : out[n1 + j]? = some out[n1 + j] := List.getElem?_eq_getElem hjo
    refine ⟨_, ho, ?_, D, hD, fun i => ?_⟩
    · rcases (e3 (n1 + j) _).1 (by rw [ho]; rfl) with ⟨hj, h⟩ | ⟨i, hj, hi', h⟩
      · omega
      · have : i = j := by omega
        rw [← this] at ht; exact h.trans ht.symm
    · rw [e4 (n1 + j) _ _ ho hf i]
      dsimp only
      change (if _ then _ else shown none .nan _ i) = _
      rw [shown_bare]
      rfl

/-- **C183**, average (hours): as C137. -/
theorem api_two_average_run (ne : NumExpr) (x : FileIn n k) (y : SecondFile m) (f : Num → Num) (mv : ℚ)
    (hidx : x.indexable = true) (hidx2 : y.indexable = true)
    (hup : x.sel.shortName.map Char.toUpper ≠ x.sel.shortName) (ao : AggrOpts) (hagg : x.aggr = some ao)
    (hty : ao.type = "average") (hh : ao.halfweights = false) (a : Int) (ha : ao.step = a) (hpos : 0 < a)
    (hinst : ∀ q ∈ x.file, String.ofList q.stepType ≠ "accum")
    (E : Int) (hE : LastStep x.file x.sel E) (hreg : StepsDiffer x.file x.sel) (start hi : Int)
    (hst : start = x.tstart.getD 0) (hstart : start ≠ 0) (hhi : hi = windowEnd x.tend E)
    (sel : List (GMsg (Arr n))) (hsel : sel = taken x.file x.sel (max 0 (start - a)) hi)
    (sel2 : List (GMsg (Arr m))) (hsel2 : sel2 = taken y.file x.sel (max 0 (start - a)) hi)
    (nj : Int) (hnj : ∀ q ∈ sel, q.nj = nj) (hdiff : (sel.map GMsg.endStep).Nodup)
    (nj2 : Int) (hnj2 : ∀ q ∈ sel2, q.nj = nj2) (hdiff2 : (sel2.map GMsg.endStep).Nodup)
    (hmv : ∀ q ∈ sel, q.missingValue = .fin mv) (hdate : ∀ q ∈ sel, (reference q).isSome = true)
    (hdate2 : ∀ q ∈ sel2, (reference q).isSome = true) (hconv : Means ne x.conversion f)
    (hfit : Fits x.table n) (hfit2 : Fits x.table2 m)
    (c : GMsg (Arr m)) (hc : c ∈ sel2) (hcmin : ∀ q ∈ sel2, c.endStep ≤ q.endStep)
    (hse : c.startStep ≤ c.endStep) (h0 : 0 ≤ c.endStep) (hend : c.endStep + a < hi)
    (hex : ∃ q ∈ sel, c.startStep ≤ q.endStep) (hex2 : ∃ q ∈ sel2, hi ≤ q.endStep) :
    ∃ out n1 n2, x.apiMapsTwo ne y = .ok out ∧ out.length = n1 + n2 ∧ (out.map (·.1)).Nodup ∧
      (∀ j : Nat, j < n1 ↔ start + j * a ≤ c.startStep) ∧
      (∀ j : Nat, j < n2 ↔ c.endStep + a + j * a ≤ hi) ∧
      (∀ (j : Nat) t, t = start + j * a → t ≤ c.startStep →
        ∃ p, out[j]? = some p ∧ p.1.endStep = t ∧
        ∃ D, MeanFrom mv f sel a t D ∧ ∀ i, p.2 i = if outside x.mask i = true then x.mvClone else
          finalCell x.height (cellOf x.table x.mvOut (Spec.cutField (x.conversion.isSome && x.cutOff) D) i) i) ∧
      ∀ (j : Nat) t, t = c.endStep + a + j * a → t ≤ hi →
        ∃ p, out[n1 + j]? = some p ∧ p.1.endStep = t ∧
        ∃ D, MeanFrom mv f sel2 a t D ∧ ∀ i, p.2 i = if outside x.mask i = true then x.mvClone else
          finalCell x.height2 (cellOf x.table2 x.mvOut (Spec.cutField (x.conversion.isSome && x.cutOff) D) i) i := by
  obtain ⟨files, n1, n2, g1, g2, g3, g4, g5, g6⟩ := two_file_average_run ne x.bare y f mv hidx hidx2 hup ao hagg hty hh a
    ha hpos hinst E hE hreg start hi hst hstart hhi sel hsel sel2 hsel2 nj hnj hdiff nj2 hnj2 hdiff2 hmv
    hdate hdate2 hconv hfit hfit2 c hc hcmin hse h0 hend hex hex2
  have hfe : firstEnd start a = start := by
    unfold firstEnd
    rw [if_neg hstart]
  have hne : sel ≠ [] := by
    obtain ⟨q, hq, -⟩ := hex
    exact List.ne_nil_of_mem hq
  obtain ⟨out, e0, e1, e2, e3, e4⟩ := api_two_intervals ne x y f mv hidx hidx2 hup ao hagg hh a ha hpos E hE
    hreg start hi hst (Or.inr ⟨hty, hstart⟩) hhi sel hsel hne sel2 hsel2 nj hnj hdiff nj2 hnj2 hdiff2 hmv hdate hdate2 hconv c hc
    hcmin hse h0 hend files g1 (by rw [hfe]; exact g3) g4
  rw [hfe] at e3
  refine ⟨out, n1, n2, e0, e2.trans g2, e1, g3, g4, ?_, ?_⟩
  · intro j t ht hle
    obtain ⟨D, hD, hf⟩ := g5 j t ht hle
    have hjo : j < out.length := by
      rw [e2]; exact (List.getElem?_eq_some_iff.1 hf).1
    have ho : out[j]? = some out[j] := List.getElem?_eq_getElem hjo
    refine ⟨_, ho, ?_, D, hD, fun i => ?_⟩
    · rcases (e3 (j) _).1 (by rw [ho]; rfl) with ⟨hj, h⟩ | ⟨i, hj, hi', h⟩
      · exact h.trans ht.symm
      · have := (g3 j).2 (by rw [← ht]; exact hle); omega
    · rw [e4 (j) _ _ ho hf i]
      dsimp only
      change (if _ then _ else shown none .nan _ i) = _
      rw [shown_bare]
      rfl
  · intro j t ht hle
    obtain ⟨D, hD, hf⟩ := g6 j t ht hle
    have hjo : n1 + j < out.length := by
      rw [e2]; exact (List.getElem?_eq_some_iff.1 hf).1
    have ho : out[n1 + j]? = some out[n1 + j] := List.getElem?_eq_getElem hjo
    refine ⟨_, ho, ?_, D, hD, fun i => ?_⟩
    · rcases (e3 (n1 + j) _).1 (by rw [ho]; rfl) with ⟨hj, h⟩ | ⟨i, hj, hi', h⟩
      · omega
      · have : i = j := by omega
        rw [← this] at ht; exact h.trans ht.symm
    · rw [e4 (n1 + j) _ _ ho hf i]
      dsimp only
      change (if _ then _ else shown none .nan _ i) = _
      rw [shown_bare]
      rfl

/-! ## Examples -/

namespace Demo

/-- C183: averages, from the command of C164. -/
example : ∃ out, (joinedNc "average").apiMapsTwo runNe laterH = .ok out ∧ out.length = 4 := by
  obtain ⟨out, n1, n2, h1, h2, -, h3, h4, -⟩ := api_two_average_run runNe (joinedNc "average") laterH
    (fun a => a * .fin 2) (-9999)
    rfl rfl (by decide +kernel) _ rfl rfl rfl 6 rfl (by decide) (by decide +kernel) 12 coarse_last coarse_steps 6 30 rfl
    (by decide) rfl _ rfl _ rfl 10 (by decide +kernel) (by decide +kernel) 5 (by decide +kernel) (by decide +kernel)
    (by decide +kernel) (by decide +kernel) (by decide +kernel) doubled
    (fun _ => Nat.le_succ 1) (fun _ => Nat.zero_le 1) _ laterH_first (by decide +kernel) (by decide) (by decide) (by decide)
    (by decide +kernel) (by decide +kernel)
  have a1 := (h3 1).2 (by decide)
  have a2 := mt (h3 2).1 (by decide)
  have b1 := (h4 1).2 (by decide)
  have b2 := mt (h4 2).1 (by decide)
  exact ⟨out, h1, by omega⟩

/-- Their steps and values. -/
example : ((joinedNc "average").apiMapsTwo runNe laterH).toOption.map (fun l => l.map fun p => (p.1.endStep, p.2 0, p.2 1)) =
    some [(6, .fin 4, .nan), (12, .fin 8, .nan), (24, .fin 18, .nan), (30, .fin 22, .nan)] := by decide +kernel

/-- C183: accumulation. -/
example : ∃ out, (joinedNc "accumulation").apiMapsTwo runNe laterH = .ok out := by
  obtain ⟨out, n1, n2, h1, -⟩ := api_two_accumulation_run runNe (joinedNc "accumulation") laterH
    (fun a => a * .fin 2) (-9999)
    rfl rfl (by decide +kernel) _ rfl rfl rfl 6 rfl (by decide) 12 coarse_last coarse_steps 6 30 rfl
    rfl _ rfl (fun h => absurd (congrArg List.length h) (by decide +kernel)) _ rfl 10 (by decide +kernel) (by decide +kernel) 5
    (by decide +kernel) (by decide +kernel)
    (by decide +kernel) (by decide +kernel) (by decide +kernel) doubled
    (fun _ => Nat.le_succ 1) (fun _ => Nat.zero_le 1) _ laterH_first (by decide +kernel) (by decide) (by decide) (by decide)
    (by
      rintro t ⟨j, rfl, hj⟩
      have hf : firstEnd 6 6 = 6 := rfl
      rw [hf] at hj ⊢
      have hj : 6 + (j : Int) * 6 ≤ 12 := hj
      have : j = 0 ∨ j = 1 := by omega
      rcases this with rfl | rfl
      · exact ⟨by decide +kernel, .inl (by decide)⟩
      · exact ⟨by decide +kernel, .inr (by decide +kernel)⟩)
    (by
      rintro t ⟨j, rfl, hj⟩
      change (18 : Int) + 6 + _ ≤ 30 at hj
      have : j = 0 ∨ j = 1 := by omega
      rcases this with rfl | rfl
      · exact ⟨by decide +kernel, .inr (by decide +kernel)⟩
      · exact ⟨by decide +kernel, .inr (by decide +kernel)⟩)
  exact ⟨out, h1⟩

/-- C183: the comparison applies. -/
example : ((joinedNc "average").pcrasterTwo runNe laterH).toOption.isSome = true := by decide +kernel

end Demo

end PyG2P
