import Verif.Model.ApiRun
import Verif.Props.NetcdfRun
import Verif.Props.Api

/-! # C182: whole API runs -/

namespace PyG2P
open Reader Aggregator Spec TableApply Converter
variable {n m k : Nat}

/-! ## The keys of the maps -/

theorem foldM_nodup {κ α β : Type} [DecidableEq κ] {β' : Type} (proj : β → Dict κ α)
    (f : β → β' → Py β) (hf : ∀ s e s', f s e = .ok s' → (Dict.keys (proj s)).Nodup → (Dict.keys (proj s')).Nodup)
    (l : List β') (s s' : β) (h : l.foldlM f s = .ok s') (hs : (Dict.keys (proj s)).Nodup) :
    (Dict.keys (proj s')).Nodup := by
  induction l generalizing s with
  | nil => cases h; exact hs
  | cons e l ih =>
    rw [List.foldlM_cons] at h
    obtain ⟨s1, h1, h2⟩ := bind_ok_iff.1 h
    exact ih s1 h2 (hf _ _ _ h1 hs)

theorem manipulation_nodup (ag : Aggregator) (values out : Dict Step (Arr n)) (h : ag.doManipulation values = .ok out) :
    (Dict.keys out).Nodup := by
  unfold doManipulation at h
  split_ifs at h with h1 h2 h3
  · unfold accumulation at h
    obtain ⟨first, -, h⟩ := bind_ok_iff.1 h
    obtain ⟨its, -, h⟩ := bind_ok_iff.1 h
    obtain ⟨st, hst, h⟩ := bind_ok_iff.1 h
    rw [← Except.ok.inj h]
    refine foldM_nodup AccSt.out _ ?_ its _ st hst List.nodup_nil
    intro s e s' hs hn
    unfold accIter at hs
    obtain ⟨vo1, -, hs⟩ := bind_ok_iff.1 hs
    obtain ⟨⟨vo2, zero⟩, -, hs⟩ := bind_ok_iff.1 hs
    obtain ⟨vp, -, hs⟩ := bind_ok_iff.1 hs
    obtain ⟨vc, -, hs⟩ := bind_ok_iff.1 hs
    rw [← Except.ok.inj hs]
    exact Dict.nodup_keys_set hn _ _
  · unfold average at h
    split_ifs at h
    obtain ⟨first, -, h⟩ := bind_ok_iff.1 h
    obtain ⟨its, -, h⟩ := bind_ok_iff.1 h
    refine foldM_nodup id _ ?_ its _ out h List.nodup_nil
    intro s e s' hs hn
    unfold avgIter at hs
    obtain ⟨⟨a, b⟩, -, hs⟩ := bind_ok_iff.1 hs
    rw [← Except.ok.inj hs]
    exact Dict.nodup_keys_set hn _ _
  · unfold instantaneous at h
    split_ifs at h
    obtain ⟨first, -, h⟩ := bind_ok_iff.1 h
    obtain ⟨its, -, h⟩ := bind_ok_iff.1 h
    refine foldM_nodup id _ ?_ its _ out h List.nodup_nil
    intro s e s' hs hn
    unfold instIter at hs
    obtain ⟨v, -, hs⟩ := bind_ok_iff.1 hs
    rw [← Except.ok.inj hs]
    exact Dict.nodup_keys_set hn _ _

theorem ctrl_nodup (c : CtrlIn n m) (hn : (Dict.keys c.msgs.first).Nodup) (values : Dict Step (Field n m))
    (change : Option Step) (h : c.run = .ok (values, change)) : (Dict.keys values).Nodup := by
  unfold CtrlIn.run at h
  cases h1 : c.firstPart with
  | error e => rw [h1] at h; cases h
  | ok v1 =>
    rw [h1] at h
    dsimp only at h
    have hv1 : (Dict.keys v1).Nodup := by
      unfold CtrlIn.firstPart at h1
      split_ifs at h1
      · split at h1
        · cases h1
        · split at h1
          · exact manipulation_nodup _ _ _ h1
          · exact manipulation_nodup _ _ _ h1
      · rw [← Except.ok.inj h1]; exact hn
    have hw : (Dict.keys (v1.map fun p => (p.1, (Sum.inl p.2 : Field n m)))).Nodup := by
      unfold Dict.keys at hv1 ⊢
      rw [List.map_map]
      exact hv1
    cases h2 : c.secondPart v1 with
    | error e => rw [h2] at h; cases h
    | ok vc =>
      obtain ⟨v, ch⟩ := vc
      rw [h2] at h
      dsimp only at h
      have hv : (Dict.keys v).Nodup := by
        unfold CtrlIn.secondPart at h2
        dsimp only at h2
        split at h2
        · rw [← (Prod.mk.inj (Except.ok.inj h2)).1]; exact hw
        · split at h2
          · cases h2
          · split_ifs at h2
            · split at h2
              · cases h2
              · split at h2
                · cases h2
                · rw [← (Prod.mk.inj (Except.ok.inj h2)).1]
                  exact Dict.nodup_keys_update hw
            · rw [← (Prod.mk.inj (Except.ok.inj h2)).1]; exact hw
      rw [← (Prod.mk.inj (Except.ok.inj h)).1]
      unfold Dict.keys at hv ⊢
      refine (((sortedBy_perm _ _).map _).nodup_iff).2 ?_
      split_ifs
      · rw [List.map_map]; exact hv
      · exact hv

theorem convert_keys (ne : NumExpr) (c : Converter) (d out : Dict Step (Arr n)) (h : MsgSet.convertDict ne c d = .ok out) :
    Dict.keys out = Dict.keys d := by
  unfold MsgSet.convertDict at h
  induction d generalizing out with
  | nil => cases h; rfl
  | cons p d ih =>
    rw [List.mapM_cons] at h
    obtain ⟨q, hq, h⟩ := bind_ok_iff.1 h
    obtain ⟨rest, hr, h⟩ := bind_ok_iff.1 h
    obtain ⟨a, -, hq⟩ := bind_ok_iff.1 hq
    rw [← Except.ok.inj h, ← Except.ok.inj hq]
    unfold Dict.keys at ih ⊢
    rw [List.map_cons, List.map_cons, ih _ hr]

theorem fields_nodup (ne : NumExpr) (r : RunIn n m k) (hn : (Dict.keys r.ctrl.msgs.first).Nodup)
    (values : Dict Step (Field n m)) (change : Option Step) (h : r.fields ne = .ok (values, change)) :
    (Dict.keys values).Nodup := by
  unfold RunIn.fields at h
  split at h
  · exact ctrl_nodup _ (by exact hn) values change h
  · split at h
    · cases h
    · rename_i msgs hmsgs
      refine ctrl_nodup _ ?_ values change h
      unfold MsgSet.applyConversion at hmsgs
      obtain ⟨f, hf, hmsgs⟩ := bind_ok_iff.1 hmsgs
      obtain ⟨g, -, hmsgs⟩ := bind_ok_iff.1 hmsgs
      rw [← Except.ok.inj hmsgs]
      show (Dict.keys f).Nodup
      rw [convert_keys ne _ _ _ hf]
      exact hn

theorem selLoop_nodup {α : Type} (nj0 sg2 : Int) (ch : Str) (ms : List (Nat × GMsg α)) (st : SelSt α)
    (h : (Dict.keys st.first).Nodup) : (Dict.keys (ms.foldl (selStep nj0 sg2 ch) st).first).Nodup := by
  induction ms generalizing st with
  | nil => exact h
  | cons p ms ih =>
    rw [List.foldl_cons]
    refine ih _ ?_
    unfold selStep
    dsimp only
    split_ifs
    all_goals first | exact Dict.nodup_keys_set h _ _ | exact h

theorem select_nodup {α : Type} (file : List (GMsg α)) (r r' : Reader) (kw : Kwargs) (s : Selection α)
    (h : Reader.select file r kw = (.ok s, r')) : (Dict.keys s.first).Nodup := by
  unfold Reader.select at h
  split at h
  · cases h
  · dsimp only at h
    split_ifs at h
    · have h := Except.ok.inj (congrArg Prod.fst h)
      rw [← h]
      unfold group
      split
      · exact List.nodup_nil
      · exact selLoop_nodup _ _ _ _ _ List.nodup_nil
    · cases h

theorem settings_nodup (x : FileIn n k) (r : RunIn n n k) (h : x.settings = .ok r) :
    (Dict.keys r.ctrl.msgs.first).Nodup := by
  unfold FileIn.settings at h
  split at h
  · cases h
  · dsimp only at h
    split at h
    · cases h
    · rename_i s r2 hs
      split at h
      · cases h
      · split at h
        · cases h
        · rename_i msgs hm
          rw [← Except.ok.inj h]
          show (Dict.keys msgs.first).Nodup
          unfold MsgSet.init at hm
          obtain ⟨f, -, hm⟩ := bind_ok_iff.1 hm
          rw [← Except.ok.inj hm]
          exact select_nodup _ _ _ _ _ hs

/-! ## The maps -/

theorem ofPairs_nodup {κ α : Type} [DecidableEq κ] (l : List (κ × α)) (h : (l.map (·.1)).Nodup) : Dict.ofPairs l = l := by
  have := set_fold (fun q : κ × α => q.1) (fun q => q.2) l [] (by simpa [Dict.keys] using h)
  rw [List.nil_append] at this
  unfold Dict.ofPairs
  rw [this]
  simp

theorem pcr_mapM {α β γ δ : Type} (f : α → Py β) (name : Nat → γ) (g : β → δ) (l : List α) (i : Nat) :
    (((l.zipIdx i).map fun q => (name q.2, (f q.1).map g)).mapM fun q => q.2.map fun c => (q.1, c)) =
      (l.mapM f).map fun bs => (bs.zipIdx i).map fun q => (name q.2, g q.1) := by
  induction l generalizing i with
  | nil => rfl
  | cons a l ih =>
    rw [List.zipIdx_cons, List.map_cons, List.mapM_cons, List.mapM_cons, ih]
    cases f a with
    | error e => rfl
    | ok b =>
      cases l.mapM f with
      | error e => rfl
      | ok bs => rfl

theorem map_mapM {α β γ : Type} (f : α → Py β) (g : α → β → γ) (l : List α) :
    (l.mapM fun a => (f a).map (g a)) = (l.mapM f).map fun bs => (l.zip bs).map fun q => g q.1 q.2 := by
  induction l with
  | nil => rfl
  | cons a l ih =>
    rw [List.mapM_cons, List.mapM_cons, ih]
    cases f a with
    | error e => rfl
    | ok b =>
      cases l.mapM f with
      | error e => rfl
      | ok bs => rfl

/-- The PCRaster files of a run from its maps. -/
theorem pcraster_eq (ne : NumExpr) (r : RunIn n m k) (values : Dict Step (Field n m)) (change : Option Step)
    (hf : r.fields ne = .ok (values, change)) :
    r.pcraster ne = ((gridLoop change false values).mapM fun q => r.render q.2.2 q.2.1).map fun bs =>
      (bs.zipIdx 1).map fun q => (pcrName r.namePrefix r.fmap r.ext (q.2 : Int), pcrWrite r.mask r.mvClone q.1) := by
  unfold RunIn.pcraster
  rw [hf]
  exact pcr_mapM (fun q : Step × Field n m × Bool => r.render q.2.2 q.2.1) (fun i => pcrName r.namePrefix r.fmap r.ext (i : Int))
    (pcrWrite r.mask r.mvClone) _ 1

/-- The maps returned from the maps made. -/
theorem apiMaps_eq (ne : NumExpr) (r : RunIn n m k) (hn : (Dict.keys r.ctrl.msgs.first).Nodup)
    (values : Dict Step (Field n m)) (change : Option Step) (hf : r.fields ne = .ok (values, change)) :
    r.apiMaps ne = ((gridLoop change false values).mapM fun q => r.render q.2.2 q.2.1).map fun bs =>
      ((Dict.keys values).zip bs).map fun q => (q.1, Api.maskValues r.mask r.mvClone q.2) := by
  unfold RunIn.apiMaps
  rw [hf]
  dsimp only
  rw [map_mapM (fun q : Step × Field n m × Bool => r.render q.2.2 q.2.1) (fun q a => (q.1, Api.maskValues r.mask r.mvClone a))]
  cases hm : (gridLoop change false values).mapM fun q => r.render q.2.2 q.2.1 with
  | error e => rfl
  | ok bs =>
    have hl := (mapM_get _ _ _ hm).1
    have hkeys := gridLoop_keys change values false
    have e1 : ((gridLoop change false values).zip bs).map (fun q => (q.1.1, Api.maskValues r.mask r.mvClone q.2)) =
        ((Dict.keys values).zip bs).map fun q => (q.1, Api.maskValues r.mask r.mvClone q.2) := by
      unfold Dict.keys
      rw [← hkeys, List.zip_map_left, List.map_map]
      rfl
    have e2 : (((Dict.keys values).zip bs).map fun q => (q.1, Api.maskValues r.mask r.mvClone q.2)).map (·.1) =
        Dict.keys values := by
      rw [List.map_map]
      change ((Dict.keys values).zip bs).map Prod.fst = _
      rw [List.map_fst_zip]
      rw [hl, gridLoop_length]
      unfold Dict.keys
      rw [List.length_map]
    change Except.ok _ = Except.ok _
    congr 1
    dsimp only
    rw [e1, ofPairs_nodup _ (by rw [e2]; exact fields_nodup ne r hn values change hf)]
    refine sorted_unchanged _ _ ?_
    have h3 : (Dict.keys values).Pairwise fun a b : Step => a.endStep ≤ b.endStep := by
      unfold Dict.keys
      rw [List.pairwise_map]
      exact fields_sorted ne r values change hf
    rw [← e2, List.pairwise_map] at h3
    exact h3

theorem withoutHalf_eq {x : FileIn n k} (hh : ∀ a, x.aggr = some a → a.halfweights = false) : x.withoutHalf = x := by
  obtain ⟨file, indexable, sel, tstart, tend, aggr, unitTime, cutOff, conversion, table, table2, mvOut, height, height2,
    mask, mvClone, namePrefix, fmap, ext, gridId, gridId2⟩ := x
  unfold FileIn.withoutHalf
  cases aggr with
  | none => rfl
  | some a =>
    have := hh a rfl
    obtain ⟨step, type, half, zero⟩ := a
    dsimp only at this
    subst this
    rfl

theorem settings_mask {x : FileIn n k} {r : RunIn n n k} (hset : x.settings = .ok r) :
    r.mask = x.mask ∧ r.mvClone = x.mvClone := by
  unfold FileIn.settings at hset
  split at hset
  · cases hset
  · dsimp only at hset
    split at hset
    · cases hset
    · split at hset
      · cases hset
      · split at hset
        · cases hset
        · rw [← Except.ok.inj hset]; exact ⟨rfl, rfl⟩

/-- The maps returned are those of the bare run, outside the clone the missing value of the clone. -/
theorem run_of_bare (ne : NumExpr) (r : RunIn n m k) (hn : (Dict.keys r.ctrl.msgs.first).Nodup)
    (files : List (Str × (Fin k → Num)))
    (h : ({ r with mask := none, mvClone := .nan } : RunIn n m k).pcraster ne = .ok files) :
    ∃ (values : Dict Step (Field n m)) (change : Option Step) (out : List (Step × (Fin k → Num))),
      r.fields ne = .ok (values, change) ∧ r.apiMaps ne = .ok out ∧
      out.map (·.1) = Dict.keys values ∧ (Dict.keys values).Nodup ∧ out.length = files.length ∧
      ∀ (j : Nat) p file, out[j]? = some p → files[j]? = some file →
        ∀ c, p.2 c = if outside r.mask c = true then r.mvClone else file.2 c := by
  cases hf : r.fields ne with
  | error e =>
    unfold RunIn.pcraster at h
    rw [show ({ r with mask := none, mvClone := .nan } : RunIn n m k).fields ne = r.fields ne from rfl, hf] at h
    cases h
  | ok vc =>
    obtain ⟨values, change⟩ := vc
    rw [pcraster_eq ne _ values change (by exact hf)] at h
    change ((gridLoop change false values).mapM fun q => r.render q.2.2 q.2.1).map _ = _ at h
    have hapi := apiMaps_eq ne r hn values change hf
    cases hm : (gridLoop change false values).mapM fun q => r.render q.2.2 q.2.1 with
    | error e => rw [hm] at h; cases h
    | ok bs =>
      rw [hm] at h hapi
      have h := Except.ok.inj h
      have hl := (mapM_get _ _ _ hm).1
      rw [gridLoop_length] at hl
      have hlk : (Dict.keys values).length = bs.length := by
        unfold Dict.keys
        rw [List.length_map, hl]
      have hapi : r.apiMaps ne = .ok (((Dict.keys values).zip bs).map fun q : Step × Arr k =>
          (q.1, Api.maskValues r.mask r.mvClone q.2)) := hapi
      refine ⟨values, change, _, rfl, hapi, ?_, fields_nodup ne r hn values change hf, ?_, ?_⟩
      · rw [List.map_map]
        change ((Dict.keys values).zip bs).map Prod.fst = _
        rw [List.map_fst_zip]
        omega
      · rw [← h]
        simp [hlk]
      · intro j p file hp hfile c
        rw [← h, List.getElem?_map, List.getElem?_zipIdx] at hfile
        rw [List.getElem?_map] at hp
        cases hb : bs[j]? with
        | none => rw [hb] at hfile; cases hfile
        | some b =>
          rw [hb] at hfile
          have hfile := Option.some.inj hfile
          have hkj : j < (Dict.keys values).length := by
            rw [hlk]; exact (List.getElem?_eq_some_iff.1 hb).1
          have hzip : ((Dict.keys values).zip bs)[j]? = some ((Dict.keys values)[j], b) := by
            rw [List.getElem?_zip_eq_some]
            exact ⟨List.getElem?_eq_getElem hkj, hb⟩
          rw [hzip] at hp
          have hp := Option.some.inj hp
          have hgj : j < (gridLoop change false values).length := by
            rw [gridLoop_length, ← hl]; exact (List.getElem?_eq_some_iff.1 hb).1
          have hr := (mapM_get _ _ _ hm).2 j _ b (List.getElem?_eq_getElem hgj) hb
          have hmk := render_unmasked r _ _ _ hr c
          rw [← hp, ← hfile]
          dsimp only
          rw [pcrWrite_shown _ _ _ _ hmk, shown_bare]
          unfold Api.maskValues
          rw [hmk, Bool.or_false]

theorem api_of_bare (ne : NumExpr) (x : FileIn n k) (hh : ∀ a, x.aggr = some a → a.halfweights = false)
    (files : List (Str × (Fin k → Num))) (h : x.bare.pcraster ne = .ok files) :
    ∃ (r : RunIn n n k) (values : Dict Step (Field n n)) (change : Option Step) (out : List (Step × (Fin k → Num))),
      x.settings = .ok r ∧ r.fields ne = .ok (values, change) ∧ x.apiMaps ne = .ok out ∧
      out.map (·.1) = Dict.keys values ∧ (Dict.keys values).Nodup ∧ out.length = files.length ∧
      ∀ (j : Nat) p file, out[j]? = some p → files[j]? = some file →
        ∀ c, p.2 c = if outside x.mask c = true then x.mvClone else file.2 c := by
  unfold FileIn.pcraster at h
  rw [bare_settings] at h
  cases hset : x.settings with
  | error e => rw [hset] at h; cases h
  | ok r =>
    rw [hset] at h
    obtain ⟨values, change, out, h1, h2, h3, h4, h5, h6⟩ := run_of_bare ne r (settings_nodup x r hset) files h
    rw [(settings_mask hset).1, (settings_mask hset).2] at h6
    refine ⟨r, values, change, out, rfl, h1, ?_, h3, h4, h5, h6⟩
    unfold FileIn.apiMaps
    rw [withoutHalf_eq hh, hset]
    exact h2

/-- Both kinds of runs, from the same maps. -/
theorem run_api_and_pcraster (ne : NumExpr) (r : RunIn n m k) (hn : (Dict.keys r.ctrl.msgs.first).Nodup) :
    (∃ e, r.apiMaps ne = .error e ∧ r.pcraster ne = .error e) ∨
      ∃ out files bare, r.apiMaps ne = .ok out ∧ r.pcraster ne = .ok files ∧
        ({ r with mask := none, mvClone := .nan } : RunIn n m k).pcraster ne = .ok bare ∧ files.length = bare.length ∧
        ∀ (j : Nat) file b, files[j]? = some file → bare[j]? = some b → ∀ c, file.2 c = shown r.mask r.mvClone (b.2 c) c := by
  cases hf : r.fields ne with
  | error e =>
    refine .inl ⟨e, ?_, ?_⟩
    · unfold RunIn.apiMaps; rw [hf]
    · unfold RunIn.pcraster; rw [hf]
  | ok vc =>
    obtain ⟨values, change⟩ := vc
    rw [pcraster_eq ne r values change hf, apiMaps_eq ne r hn values change hf]
    rw [pcraster_eq ne _ values change (by exact hf)]
    change _ ∨ ∃ out files bare, _ ∧ _ ∧ ((gridLoop change false values).mapM fun q => r.render q.2.2 q.2.1).map _ = _ ∧ _
    cases hm : (gridLoop change false values).mapM fun q => r.render q.2.2 q.2.1 with
    | error e => exact .inl ⟨e, rfl, rfl⟩
    | ok bs =>
      refine .inr ⟨_, _, _, rfl, rfl, rfl, by simp, ?_⟩
      intro j file b hfile hb' c
      rw [List.getElem?_map, List.getElem?_zipIdx] at hfile hb'
      cases hbj : bs[j]? with
      | none => rw [hbj] at hb'; cases hb'
      | some a =>
        rw [hbj] at hfile hb'
        have hgj : j < (gridLoop change false values).length := by
          rw [← (mapM_get _ _ _ hm).1]; exact (List.getElem?_eq_some_iff.1 hbj).1
        have hr := (mapM_get _ _ _ hm).2 j _ a (List.getElem?_eq_getElem hgj) hbj
        have hmk := render_unmasked r _ _ _ hr c
        rw [← Option.some.inj hfile, ← Option.some.inj hb']
        dsimp only
        rw [pcrWrite_shown _ _ _ _ hmk, pcrWrite_shown _ _ _ _ hmk, shown_bare]

theorem run_api_fails (ne : NumExpr) (r : RunIn n m k) (hn : (Dict.keys r.ctrl.msgs.first).Nodup) (e : PyErr) :
    r.apiMaps ne = .error e ↔ r.pcraster ne = .error e := by
  rcases run_api_and_pcraster ne r hn with ⟨e', h1, h2⟩ | ⟨out, files, bare, h1, h2, -⟩
  · rw [h1, h2]
    exact ⟨fun h => congrArg Except.error (Except.error.inj h), fun h => congrArg Except.error (Except.error.inj h)⟩
  · rw [h1, h2]
    constructor
    · intro h; cases h
    · intro h; cases h

namespace Spec

/-- The maps `out` of an API run are those in the PCRaster files `files`, for the clone with the mask and missing value
given: as many, with different steps in the order of their ends. In every cell outside the clone both have its missing
value; in the others the same, except that for NaN the file has the missing value of the clone. -/
structure SameMaps (mask : Option (Fin k → Bool)) (mv : Num) (out : List (Step × (Fin k → Num)))
    (files : List (Str × (Fin k → Num))) : Prop where
  length : out.length = files.length
  steps : (out.map (·.1)).Nodup
  order : out.Pairwise fun a b => a.1.endStep ≤ b.1.endStep
  cells : ∀ (j : Nat) p file, out[j]? = some p → files[j]? = some file → ∀ c,
    (outside mask c = true → p.2 c = mv ∧ file.2 c = mv) ∧
    (outside mask c = false → file.2 c = if p.2 c = .nan then mv else p.2 c)

end Spec

theorem run_api_as_pcraster (ne : NumExpr) (r : RunIn n m k) (hn : (Dict.keys r.ctrl.msgs.first).Nodup)
    (files : List (Str × (Fin k → Num))) (h : r.pcraster ne = .ok files) :
    ∃ out, r.apiMaps ne = .ok out ∧ SameMaps r.mask r.mvClone out files ∧
      ∀ ms, r.maps ne = .ok ms → ms.map (·.1) = out.map (·.1.endStep) := by
  rcases run_api_and_pcraster ne r hn with ⟨e', h1, h2⟩ | ⟨out, files', bare, h1, h2, h3, hl, hc⟩
  · rw [h] at h2; cases h2
  · rw [h] at h2
    have h2 := Except.ok.inj h2
    subst h2
    obtain ⟨values, change, out', hf, ho, hkeys, hnd, hlen, hcell⟩ := run_of_bare ne r hn bare h3
    rw [h1] at ho
    have ho := Except.ok.inj ho
    subst ho
    have hs := fields_sorted ne r values change hf
    refine ⟨out, h1, ⟨hlen.trans hl.symm, by rw [hkeys]; exact hnd, ?_, ?_⟩, ?_⟩
    · have : (out.map (·.1)).Pairwise fun a b : Step => a.endStep ≤ b.endStep := by
        rw [hkeys]
        unfold Dict.keys
        rw [List.pairwise_map]
        exact hs
      rw [List.pairwise_map] at this
      exact this
    · intro j p file hp hfile c
      have hlt : j < bare.length := by rw [← hl]; exact (List.getElem?_eq_some_iff.1 hfile).1
      have hp' := hcell j p _ hp (List.getElem?_eq_getElem hlt) c
      have hf' := hc j file _ hfile (List.getElem?_eq_getElem hlt) c
      rw [hp', hf']
      unfold shown
      constructor
      · intro ho
        rw [if_pos ho, if_pos (.inl ho)]
        exact ⟨rfl, rfl⟩
      · intro ho
        rw [ho, if_neg (show ¬ (false = true) by decide)]
        by_cases hna : bare[j].2 c = .nan
        · rw [if_pos (.inr hna), if_pos hna]
        · have hno : ¬ (false = true ∨ bare[j].2 c = .nan) := by
            rintro (h | h)
            · cases h
            · exact hna h
          rw [if_neg hno, if_neg hna]
    · intro ms hms
      obtain ⟨l2, g2⟩ := maps_get ne r ms values change hf hms
      have e1 : out.map (·.1.endStep) = values.map fun e => e.1.endStep := by
        have := congrArg (List.map Step.endStep) hkeys
        rw [List.map_map] at this
        unfold Dict.keys at this
        rw [List.map_map] at this
        exact this
      rw [e1]
      apply List.ext_getElem?
      intro j
      rw [List.getElem?_map, List.getElem?_map]
      cases hj : ms[j]? with
      | none =>
        have : values[j]? = none := by
          rw [List.getElem?_eq_none_iff] at hj ⊢
          omega
        rw [this]; rfl
      | some q =>
        obtain ⟨t, v, b, hv, -, ht, -⟩ := g2 j q hj
        rw [hv, Option.map_some, Option.map_some, ht]

/-- **C182**: an API run fails exactly when the command does, with the same error. -/
theorem api_fails_as_command (ne : NumExpr) (x : FileIn n k) (hh : ∀ a, x.aggr = some a → a.halfweights = false) (e : PyErr) :
    x.apiMaps ne = .error e ↔ x.pcraster ne = .error e := by
  unfold FileIn.apiMaps FileIn.pcraster
  rw [withoutHalf_eq hh]
  cases hset : x.settings with
  | error e' => exact ⟨fun h => by exact congrArg Except.error (Except.error.inj h),
      fun h => by exact congrArg Except.error (Except.error.inj h)⟩
  | ok r => exact run_api_fails ne r (settings_nodup x r hset) e

/-- **C182**: if the command writes PCRaster maps, the API run returns the same, under steps whose ends are the times of
the data set of the same command with netCDF output. -/
theorem api_as_command (ne : NumExpr) (x : FileIn n k) (hh : ∀ a, x.aggr = some a → a.halfweights = false)
    (files : List (Str × (Fin k → Num))) (h : x.pcraster ne = .ok files) :
    ∃ out, x.apiMaps ne = .ok out ∧ SameMaps x.mask x.mvClone out files ∧
      ∀ r ms, x.settings = .ok r → r.maps ne = .ok ms → ms.map (·.1) = out.map (·.1.endStep) := by
  unfold FileIn.pcraster at h
  unfold FileIn.apiMaps
  rw [withoutHalf_eq hh]
  cases hset : x.settings with
  | error e => rw [hset] at h; cases h
  | ok r =>
    rw [hset] at h
    obtain ⟨out, h1, h2, h3⟩ := run_api_as_pcraster ne r (settings_nodup x r hset) files h
    rw [(settings_mask hset).1, (settings_mask hset).2] at h2
    exact ⟨out, h1, h2, fun r' ms hr' => by rw [← Except.ok.inj hr']; exact h3 ms⟩

/-- **C182 is violated** with half weights: an API run returns the maps of the command without them. -/
theorem api_half_weights (ne : NumExpr) (x : FileIn n k) (a : AggrOpts) (ha : x.aggr = some a) :
    x.apiMaps ne = ({ x with aggr := some { a with halfweights := false } } : FileIn n k).apiMaps ne := by
  unfold FileIn.apiMaps FileIn.withoutHalf
  rw [ha]
  rfl

/-! ## What is returned -/

/-- **C182**, no aggregation. An API run on an indexed file (messages taken as in C124) returns one map for each message
taken, in the order of the end steps, under a step with this end. Each cell holds what the table gives for the converted
field, corrected; outside the clone the missing value of the clone. -/
theorem api_plain_run (ne : NumExpr) (x : FileIn n k) (f : Num → Num) (mv : ℚ) (hidx : x.indexable = true)
    (hup : x.sel.shortName.map Char.toUpper ≠ x.sel.shortName) (hagg : x.aggr = none)
    (E : Int) (hE : LastStep x.file x.sel E) (sel : List (GMsg (Arr n)))
    (hsel : sel = taken x.file x.sel (x.tstart.getD 0) (windowEnd x.tend E)) (hne : sel ≠ [])
    (nj : Int) (hnj : ∀ m ∈ sel, m.nj = nj) (hdiff : sel.Pairwise Spec.Differ)
    (hmv : ∀ m ∈ sel, m.missingValue = .fin mv) (hdate : ∀ m ∈ sel, (reference m).isSome = true)
    (hconv : Means ne x.conversion f) (hfit : Fits x.table n) :
    ∃ (ord : List (GMsg (Arr n))) (out : List (Step × (Fin k → Num))), ord.Perm sel ∧
      ord.Pairwise (fun a b => a.endStep ≤ b.endStep) ∧ x.apiMaps ne = .ok out ∧ (out.map (·.1)).Nodup ∧
      out.map (·.1.endStep) = ord.map GMsg.endStep ∧
      ∀ (j : Nat) m p, ord[j]? = some m → out[j]? = some p → ∀ c,
        p.2 c = if outside x.mask c = true then x.mvClone else
          finalCell x.height (cellOf x.table x.mvOut
            (Spec.cutField (x.conversion.isSome && x.cutOff) (convertedField mv f m.values)) c) c := by
  subst hsel
  obtain ⟨info, t2, msgs, ms, hset, hend, hone, hmvs, hperm, hmap⟩ := file_settings x hidx hup E hE _ _
    (fun step _ => by rw [hagg]; exact window_plain x.tstart x.tend step E) hne nj hnj hdiff mv hmv hdate
  obtain ⟨ord, files, hop, hos, hrun, hlen, hfile⟩ := file_plain_run ne x.bare f mv hidx hup hagg E hE _ rfl hne nj hnj
    hdiff hmv hdate hconv hfit
  obtain ⟨r, values, change, out, hset', hf, hout, hkeys, hnd, hlo, hcell⟩ := api_of_bare ne x
    (fun a h => by rw [hagg] at h; cases h) files hrun
  rw [hset] at hset'
  have hset' := Except.ok.inj hset'
  have htimes : values.map (fun e => e.1.endStep) = ord.map GMsg.endStep := by
    have hs1 := fields_sorted ne r values change hf
    refine List.Perm.eq_of_pairwise (le := (· ≤ ·)) (fun a b _ _ h1 h2 => le_antisymm h1 h2) ?_ ?_ ?_
    · rw [List.pairwise_map]; exact hs1
    · rw [List.pairwise_map]; exact hos
    · rw [← hset', fields_single ne _ f mv hmvs hconv hone] at hf
      have h1 : (convertedCtrl mv f (x.assemble info t2 msgs).ctrl).firstPart = .ok (convertedMsgs mv f msgs.first) := by
        unfold CtrlIn.firstPart convertedCtrl FileIn.assemble
        dsimp only
        rw [hagg, if_neg (by decide)]
      rw [h1] at hf
      have hf := congrArg Prod.fst (Except.ok.inj hf)
      dsimp only at hf
      have e1 : (values.map fun e => e.1.endStep).Perm (msgs.first.map fun e => e.1.endStep) := by
        rw [← hf]
        refine ((sortedBy_perm _ _).map _).trans ?_
        rw [List.map_map]
        unfold convertedMsgs
        rw [List.map_map]
        exact List.Perm.refl _
      have e2 : (msgs.first.map fun e => e.1.endStep) = ms.map GMsg.endStep := by
        have := congrArg (List.map fun q : Int × Int × Int × Int × Arr n => q.2.1) hmap
        rw [List.map_map, List.map_map] at this
        exact this
      rw [e2] at e1
      exact e1.trans ((hperm.trans hop.symm).map _)
  refine ⟨ord, out, hop, hos, hout, by rw [hkeys]; exact hnd, ?_, ?_⟩
  · rw [← htimes]
    have := congrArg (List.map Step.endStep) hkeys
    rw [List.map_map] at this
    unfold Dict.keys at this
    rw [List.map_map] at this
    exact this
  · intro j m p hm hp c
    have hfj := hfile j m hm
    have := hcell j p _ hp hfj c
    rw [this]
    dsimp only
    change (if _ then _ else shown none .nan _ c) = _
    rw [shown_bare]
    rfl

/-- The times of the maps of a run into intervals. -/
theorem api_intervals (ne : NumExpr) (x : FileIn n k) (f : Num → Num) (mv : ℚ) (hidx : x.indexable = true)
    (hup : x.sel.shortName.map Char.toUpper ≠ x.sel.shortName) (ao : AggrOpts) (hagg : x.aggr = some ao)
    (hh : ao.halfweights = false) (a : Int) (ha : ao.step = a) (hpos : 0 < a)
    (E : Int) (hE : LastStep x.file x.sel E) (hreg : StepsDiffer x.file x.sel) (start hi : Int)
    (hst : start = x.tstart.getD 0) (hhi : hi = windowEnd x.tend E) (hty : Intervals ao.type start)
    (sel : List (GMsg (Arr n)))
    (hsel : sel = taken x.file x.sel (max 0 (start - a)) hi) (hne : sel ≠ [])
    (nj : Int) (hnj : ∀ m ∈ sel, m.nj = nj) (hdiff : (sel.map GMsg.endStep).Nodup)
    (hmv : ∀ m ∈ sel, m.missingValue = .fin mv) (hdate : ∀ m ∈ sel, (reference m).isSome = true)
    (hconv : Means ne x.conversion f) (files : List (Str × (Fin k → Num))) (hrun : x.bare.pcraster ne = .ok files) :
    ∃ out, x.apiMaps ne = .ok out ∧ (out.map (·.1)).Nodup ∧ out.length = files.length ∧
      (∀ (j : Nat) t, (out[j]?).map (·.1.endStep) = some t ↔ t = firstEnd start a + j * a ∧ t ≤ hi) ∧
      ∀ (j : Nat) p file, out[j]? = some p → files[j]? = some file →
        ∀ c, p.2 c = if outside x.mask c = true then x.mvClone else file.2 c := by
  subst hsel
  have hwin : ∀ step, (StepsDiffer x.file x.sel → step ≠ 0) →
      readerWindow x.tstart x.tend (x.aggr.map AggrOpts.step) step E = (max 0 (start - a), hi) := fun step h => by
    rw [hagg, hst, hhi, ← ha]
    exact window_aggr x.tstart x.tend ao.step step E (h hreg)
  obtain ⟨info, t2, msgs, ms, hset, hend, hone, hmvs, hperm, hmap⟩ := file_settings x hidx hup E hE _ _ hwin hne nj hnj
    (differ_of_ends hdiff) mv hmv hdate
  obtain ⟨r, values, change, out, hset', hf, hout, hkeys, hnd, hlo, hcell⟩ := api_of_bare ne x
    (fun b h => by rw [hagg] at h; rw [← Option.some.inj h]; exact hh) files hrun
  rw [hset] at hset'
  have hset' := Except.ok.inj hset'
  have hr := range_eq x info
  rw [hend] at hr
  have hrs : (x.assemble info t2 msgs).ctrl.start = start := by
    rw [hst]; exact congrArg Prod.fst hr
  have hre : (x.assemble info t2 msgs).ctrl.end_ = hi := by
    rw [hhi]; exact congrArg Prod.snd hr
  rw [← hset'] at hf
  have htimes := interval_times ne (x.assemble info t2 msgs) f mv hmvs hconv hone
    (by show x.aggr.isSome = true; rw [hagg]; rfl) a
    (by show x.aggr.map AggrOpts.step = some a; rw [hagg, ← ha]; rfl) hpos
    (by
      rw [hrs]
      show Intervals ((x.aggr.map AggrOpts.type).getD "") start
      rw [hagg]
      exact hty) values change hf
  rw [hrs, hre] at htimes
  have hends : out.map (·.1.endStep) = rangeList (firstEnd start a) (hi + 1) a := by
    rw [← htimes]
    have := congrArg (List.map Step.endStep) hkeys
    rw [List.map_map] at this
    unfold Dict.keys at this
    rw [List.map_map] at this
    exact this
  refine ⟨out, hout, by rw [hkeys]; exact hnd, hlo, fun j t => ?_, hcell⟩
  rw [← List.getElem?_map, hends]
  constructor
  · intro h
    have hlt := (List.getElem?_eq_some_iff.1 h).1
    have h2 := rangeList_length_le hpos j hlt
    rw [rangeList_get hpos j h2] at h
    have := Option.some.inj h
    exact ⟨this.symm, by omega⟩
  · rintro ⟨rfl, h⟩
    exact rangeList_get hpos j (by omega)

/-- **C182**, accumulation. As C125: one map for each interval, under a step with its end, with the cells of C125; outside
the clone the missing value of the clone. -/
theorem api_accumulation_run (ne : NumExpr) (x : FileIn n k) (f : Num → Num) (mv : ℚ) (hidx : x.indexable = true)
    (hup : x.sel.shortName.map Char.toUpper ≠ x.sel.shortName) (ao : AggrOpts) (hagg : x.aggr = some ao)
    (hty : ao.type = "accumulation") (hh : ao.halfweights = false) (a : Int) (ha : ao.step = a) (hpos : 0 < a)
    (E : Int) (hE : LastStep x.file x.sel E) (hreg : StepsDiffer x.file x.sel) (start hi : Int)
    (hst : start = x.tstart.getD 0) (hhi : hi = windowEnd x.tend E) (sel : List (GMsg (Arr n)))
    (hsel : sel = taken x.file x.sel (max 0 (start - a)) hi) (hne : sel ≠ [])
    (nj : Int) (hnj : ∀ m ∈ sel, m.nj = nj) (hdiff : (sel.map GMsg.endStep).Nodup)
    (hmv : ∀ m ∈ sel, m.missingValue = .fin mv) (hdate : ∀ m ∈ sel, (reference m).isSome = true)
    (hconv : Means ne x.conversion f) (hfit : Fits x.table n)
    (hcur : ∀ t, InRange (firstEnd start a) hi a t →
      (∃ m ∈ sel, m.endStep = t) ∧ (t - a = 0 ∨ ∃ m ∈ sel, m.endStep = t - a)) :
    ∃ out, x.apiMaps ne = .ok out ∧ (out.map (·.1)).Nodup ∧
      (∀ (j : Nat) t, (out[j]?).map (·.1.endStep) = some t ↔ t = firstEnd start a + j * a ∧ t ≤ hi) ∧
      ∀ (j : Nat) p, out[j]? = some p →
        ∃ (mc : GMsg (Arr n)) (vp D : Arr n), mc ∈ sel ∧ mc.endStep = p.1.endStep ∧
          (if p.1.endStep = a ∧ (ao.forceZero = true ∨ ∀ m ∈ sel, m.endStep ≠ 0) then
            (∀ i, vp.data i = 0 ∧ vp.masked i = false)
           else ∃ mp ∈ sel, mp.endStep = p.1.endStep - a ∧ vp = convertedField mv f mp.values) ∧
          (∀ i, D.data i = ((convertedField mv f mc.values).data i - vp.data i) * Num.ofInt x.unitTime / Num.ofInt a ∧
            D.masked i = vp.masked i) ∧
          ∀ c, p.2 c = if outside x.mask c = true then x.mvClone else
            finalCell x.height (cellOf x.table x.mvOut (Spec.cutField (x.conversion.isSome && x.cutOff) D) c) c := by
  obtain ⟨files, hrun, hlen, hfile⟩ := file_accumulation_run ne x.bare f mv hidx hup ao hagg hty a ha hpos E hE hreg start
    hi hst hhi sel hsel hne nj hnj hdiff hmv hdate hconv hfit hcur
  obtain ⟨out, hout, hnd, hlo, hget, hcell⟩ := api_intervals ne x f mv hidx hup ao hagg hh a ha hpos E hE hreg start hi hst hhi
    (Or.inl hty) sel hsel hne nj hnj hdiff hmv hdate hconv files hrun
  refine ⟨out, hout, hnd, hget, fun j p hp => ?_⟩
  obtain ⟨ht, hle⟩ := (hget j p.1.endStep).1 (by rw [hp]; rfl)
  obtain ⟨mc, vp, D, h1, h2, h3, h4, h5⟩ := hfile j _ ht hle
  refine ⟨mc, vp, D, h1, h2, h3, h4, fun c => ?_⟩
  rw [hcell j p _ hp h5 c]
  dsimp only
  change (if _ then _ else shown none .nan _ c) = _
  rw [shown_bare]
  rfl

/-- **C182**, average (hours): as C125. -/
theorem api_average_run (ne : NumExpr) (x : FileIn n k) (f : Num → Num) (mv : ℚ) (hidx : x.indexable = true)
    (hup : x.sel.shortName.map Char.toUpper ≠ x.sel.shortName) (ao : AggrOpts) (hagg : x.aggr = some ao)
    (hty : ao.type = "average") (hh : ao.halfweights = false) (a : Int) (ha : ao.step = a) (hpos : 0 < a)
    (hinst : ∀ m ∈ x.file, named x.sel m = true → String.ofList m.stepType ≠ "accum")
    (E : Int) (hE : LastStep x.file x.sel E) (hreg : StepsDiffer x.file x.sel) (start hi : Int)
    (hst : start = x.tstart.getD 0) (h0 : start ≠ 0) (hhi : hi = windowEnd x.tend E) (sel : List (GMsg (Arr n)))
    (hsel : sel = taken x.file x.sel (max 0 (start - a)) hi)
    (nj : Int) (hnj : ∀ m ∈ sel, m.nj = nj) (hdiff : (sel.map GMsg.endStep).Nodup)
    (hmv : ∀ m ∈ sel, m.missingValue = .fin mv) (hdate : ∀ m ∈ sel, (reference m).isSome = true)
    (hconv : Means ne x.conversion f) (hfit : Fits x.table n)
    (hex : ∃ m ∈ sel, hi ≤ m.endStep) :
    ∃ out, x.apiMaps ne = .ok out ∧ (out.map (·.1)).Nodup ∧
      (∀ (j : Nat) t, (out[j]?).map (·.1.endStep) = some t ↔ t = start + j * a ∧ t ≤ hi) ∧
      ∀ (j : Nat) p, out[j]? = some p →
        ∃ (F : Int → GMsg (Arr n)) (D : Arr n),
          (∀ h, p.1.endStep - a < h → h ≤ p.1.endStep → F h ∈ sel ∧ h ≤ (F h).endStep ∧
            ∀ m ∈ sel, h ≤ m.endStep → (F h).endStep ≤ m.endStep) ∧
          (∀ i, D.data i = ((List.range a.toNat).map fun (y : Nat) =>
              (convertedField mv f (F (p.1.endStep - a + 1 + (y : Int))).values).data i).sum / Num.ofInt a ∧
            D.masked i = false) ∧
          ∀ c, p.2 c = if outside x.mask c = true then x.mvClone else
            finalCell x.height (cellOf x.table x.mvOut (Spec.cutField (x.conversion.isSome && x.cutOff) D) c) c := by
  obtain ⟨files, hrun, hlen, hfile⟩ := file_average_run ne x.bare f mv hidx hup ao hagg hty hh a ha hpos hinst E hE hreg
    start hi hst h0 hhi sel hsel nj hnj hdiff hmv hdate hconv hfit hex
  have hne : sel ≠ [] := by
    obtain ⟨m, hm, -⟩ := hex
    intro h
    rw [h] at hm
    cases hm
  have hfe : firstEnd start a = start := by
    unfold firstEnd
    rw [if_neg h0]
  obtain ⟨out, hout, hnd, hlo, hget, hcell⟩ := api_intervals ne x f mv hidx hup ao hagg hh a ha hpos E hE hreg start hi hst hhi
    (Or.inr ⟨hty, h0⟩) sel hsel hne nj hnj hdiff hmv hdate hconv files hrun
  rw [hfe] at hget
  refine ⟨out, hout, hnd, hget, fun j p hp => ?_⟩
  obtain ⟨ht, hle⟩ := (hget j p.1.endStep).1 (by rw [hp]; rfl)
  obtain ⟨F, D, h1, h2, h5⟩ := hfile j _ ht hle
  refine ⟨F, D, h1, h2, fun c => ?_⟩
  rw [hcell j p _ hp h5 c]
  dsimp only
  change (if _ then _ else shown none .nan _ c) = _
  rw [shown_bare]
  rfl

/-! ## Examples -/

namespace Demo

/-- C182: three maps. -/
example : ∃ out, (ncIn none none none).apiMaps (fun _ => none) = .ok out ∧ out.length = 3 := by
  obtain ⟨ord, out, hp, -, ho, -, ht, -⟩ := api_plain_run (fun _ => none) (ncIn none none none) id (-9999) rfl
    (by decide +kernel) rfl 18 rainH_last _ rfl (fun h => absurd (congrArg List.length h) (by decide +kernel)) 10
    (by decide +kernel) (differ_of_ends (by decide +kernel)) (by decide +kernel) (by decide +kernel)
    (.inl ⟨.inl rfl, rfl⟩) (fun _ => Nat.le_succ 1)
  refine ⟨out, ho, ?_⟩
  have := congrArg List.length ht
  rw [List.length_map, List.length_map, hp.length_eq] at this
  rw [this]
  decide +kernel

/-- Their steps and values; the second cell is outside the clone. -/
example : ((ncIn none none none).apiMaps (fun _ => none)).toOption.map (fun l => l.map fun p => (p.1.endStep, p.2 0, p.2 1)) =
    some [(6, .fin 2, .nan), (12, .fin 5, .nan), (18, .fin 9, .nan)] := by decide +kernel

/-- C182: accumulation over 6 hours. -/
example : ∃ out, (ncIn (some 12) none (some ⟨6, "accumulation", false, false⟩)).apiMaps (fun _ => none) = .ok out ∧
    (out[1]?).map (·.1.endStep) = some 18 := by
  obtain ⟨out, ho, -, hget, -⟩ := api_accumulation_run (fun _ => none)
    (ncIn (some 12) none (some ⟨6, "accumulation", false, false⟩)) id (-9999) rfl (by decide +kernel) _ rfl rfl rfl 6
    rfl (by decide) 18 rainH_last rainH_steps 12 18 rfl rfl _ rfl
    (fun h => absurd (congrArg List.length h) (by decide +kernel)) 10
    (by decide +kernel) (by decide +kernel) (by decide +kernel) (by decide +kernel) (.inl ⟨.inl rfl, rfl⟩)
    (fun _ => Nat.le_succ 1)
    (by
      rintro t ⟨j, rfl, hj⟩
      have hf : firstEnd 12 6 = 12 := rfl
      rw [hf] at hj ⊢
      have : j = 0 ∨ j = 1 := by omega
      rcases this with rfl | rfl
      · exact ⟨by decide +kernel, .inr (by decide +kernel)⟩
      · exact ⟨by decide +kernel, .inr (by decide +kernel)⟩)
  exact ⟨out, ho, (hget 1 18).2 (by decide)⟩

/-- C182: averages over 6 hours. -/
example : ∃ out, ncAvg.apiMaps (fun _ => none) = .ok out ∧ (out[1]?).map (·.1.endStep) = some 18 := by
  obtain ⟨out, ho, -, hget, -⟩ := api_average_run (fun _ => none) ncAvg id (-9999) rfl (by decide +kernel) _ rfl rfl rfl 6
    rfl (by decide) (by decide +kernel) 18
    ⟨⟨{ fmsg "tp" 0 18 7 9 with stepType := "instant".toList, startStep := 18, other := noonH },
      List.mem_map.2 ⟨{ fmsg "tp" 0 18 7 9 with other := noonH },
        List.mem_map.2 ⟨fmsg "tp" 0 18 7 9, by unfold rain; simp, rfl⟩, rfl⟩, by decide +kernel, rfl⟩, by decide +kernel⟩
    ⟨by decide +kernel, fun m hm => (by
      have := congrArg List.length hm
      have h3 : (ncAvg.file.filter (named ncAvg.sel)).length = 3 := by decide +kernel
      rw [h3] at this
      cases this)⟩ 12 18 rfl (by decide) rfl _ rfl 10 (by decide +kernel) (by decide +kernel) (by decide +kernel)
    (by decide +kernel) (.inl ⟨.inl rfl, rfl⟩) (fun _ => Nat.le_succ 1) (by decide +kernel)
  exact ⟨out, ho, (hget 1 18).2 (by decide)⟩

/-- C182 with half weights: the maps of the command differ. -/
example : let x : FileIn 2 2 := { ncAvg with aggr := some ⟨6, "average", true, false⟩ }
    ((x.apiMaps (fun _ => none)).toOption.map fun l => l.map fun p => p.2 0) ≠
      ((x.pcraster (fun _ => none)).toOption.map fun l => l.map fun p => p.2 0) := by decide +kernel

/-- C182: the file not indexed; the API run fails like the command. -/
example : ({ ncIn none none none with file := [] } : FileIn 2 2).apiMaps (fun _ => none) = .error (.app 3000) :=
  (api_fails_as_command _ _ (by intro a h; cases h) _).2 (by decide +kernel)

end Demo
end PyG2P
