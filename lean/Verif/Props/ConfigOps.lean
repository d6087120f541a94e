import Verif.Props.Config

/-! # C43, C46, C81 — changing the configuration -/

namespace PyG2P

/-! ## C43: registering geopotentials -/

theorem Dict.get?_erase {κ α : Type} [DecidableEq κ] {d : Dict κ α} (hd : (Dict.keys d).Nodup) (k k' : κ) :
    Dict.get? (Dict.erase d k) k' = if k = k' then none else Dict.get? d k' := by
  induction d with
  | nil => simp [Dict.erase]
  | cons p d ih =>
    obtain ⟨a, v⟩ := p
    rw [Dict.keys_cons, List.nodup_cons] at hd
    unfold Dict.erase
    by_cases h : a = k
    · rw [if_pos h]
      subst h
      by_cases h' : a = k'
      · subst h'
        rw [if_pos rfl]
        exact Dict.get?_eq_none_iff.2 hd.1
      · rw [if_neg h', Dict.get?_cons, if_neg h']
    · rw [if_neg h, Dict.get?_cons, Dict.get?_cons, ih hd.2]
      by_cases h' : a = k'
      · subst h'
        rw [if_pos rfl, if_pos rfl, if_neg (fun e => h e.symm)]
      · rw [if_neg h', if_neg h']

theorem Dict.nodup_keys_erase {κ α : Type} [DecidableEq κ] {d : Dict κ α} (hd : (Dict.keys d).Nodup) (k : κ) :
    (Dict.keys (Dict.erase d k)).Nodup := by
  have hs : ∀ d : Dict κ α, (Dict.keys (Dict.erase d k)).Sublist (Dict.keys d) := by
    intro d
    induction d with
    | nil => exact List.Sublist.refl _
    | cons p d ih =>
      obtain ⟨a, v⟩ := p
      unfold Dict.erase
      by_cases h : a = k
      · rw [if_pos h]; exact List.sublist_cons_self _ _
      · rw [if_neg h]; exact ih.cons_cons _
  exact (hs d).nodup hd

/-- The state of a registry whose file agrees with the entries in memory. -/
def Spec.DiskAgrees (c : Conf Str) : Prop := ∃ d, c.disk = some (.obj d) ∧ d.Perm c.user

/-- What a history of operations does to a registry. -/
theorem geoSteps_inv (le : Str → Str → Bool) (c : Conf Str) (ops : List GeoOp)
    (hn : (Dict.keys c.user).Nodup) :
    let c' := ops.foldl (geoStep le) c
    c'.vars = c.vars ∧ (Dict.keys c'.user).Nodup ∧
    (∀ id v, id ∈ Dict.keys c.vars → Dict.get? c'.user id = some v → Dict.get? c.user id = some v) ∧
    (Spec.DiskAgrees c → c'.user ≠ [] → Spec.DiskAgrees c') := by
  dsimp only
  induction ops using List.reverseRecOn with
  | nil => exact ⟨rfl, hn, fun _ _ _ h => h, fun h _ => h⟩
  | append_singleton ops op ih =>
    obtain ⟨h1, h2, h3, h4⟩ := ih
    rw [List.foldl_append, List.foldl_cons, List.foldl_nil]
    generalize ops.foldl (geoStep le) c = c1 at h1 h2 h3 h4 ⊢
    cases op with
    | add id name w =>
      unfold geoStep geoAdd
      dsimp only
      by_cases hm : id ∈ Dict.keys c1.vars
      · rw [if_pos hm]
        exact ⟨h1, h2, h3, h4⟩
      · rw [if_neg hm]
        cases w with
        | error e => exact ⟨h1, h2, h3, h4⟩
        | ok u =>
          refine ⟨h1, Dict.nodup_keys_set h2 _ _, ?_, ?_⟩
          · intro id' v hid hg
            change Dict.get? (Dict.set c1.user id name) id' = some v at hg
            rw [Dict.get?_set] at hg
            by_cases e : id = id'
            · subst e
              rw [h1] at hm
              exact absurd hid hm
            · rw [if_neg e] at hg
              exact h3 id' v hid hg
          · intro _ hne
            obtain ⟨d', e1, e2⟩ := dumpFile_obj le (d := Dict.set c1.user id name) hne
            exact ⟨d', congrArg some e1, e2⟩
    | remove name =>
      unfold geoStep geoRemove
      dsimp only
      cases hf : c1.user.find? (fun p => decide (p.2 = name)) with
      | none => exact ⟨h1, h2, h3, h4⟩
      | some p =>
        dsimp only
        refine ⟨h1, Dict.nodup_keys_erase h2 _, ?_, ?_⟩
        · intro id' v hid hg
          change Dict.get? (Dict.erase c1.user p.1) id' = some v at hg
          rw [Dict.get?_erase h2] at hg
          by_cases e : p.1 = id'
          · rw [if_pos e] at hg; cases hg
          · rw [if_neg e] at hg
            exact h3 id' v hid hg
        · intro _ hne
          obtain ⟨d', e1, e2⟩ := dumpFile_obj le (d := Dict.erase c1.user p.1) hne
          exact ⟨d', congrArg some e1, e2⟩

/-- **C43** (the part that holds). Start from a registry just loaded (`c`: every user entry is among the
known entries, the file agrees with memory) and perform any sequence of registrations and removals.
* An identifier known when the program started is never given another file: it keeps its file or is removed,
  and registering it is refused with error 8300.
* An accepted registration adds the entry and changes no other one.
* Removing a file name registered once deletes exactly that entry; removing an unknown one changes nothing.
* As long as some entry is left, the file on disk has exactly the entries in memory.
What is missing: an identifier registered by the program itself (`geo_reregistered`), a file name registered
twice (`geo_remove_first_only`). -/
theorem geo_registry_partial (le : Str → Str → Bool) (c : Conf Str) (ops : List GeoOp)
    (hn : (Dict.keys c.user).Nodup) (hdisk : Spec.DiskAgrees c) :
    let c' := ops.foldl (geoStep le) c
    (∀ id, id ∈ Dict.keys c.vars → (∀ v, Dict.get? c'.user id = some v → Dict.get? c.user id = some v) ∧
      ∀ name w, geoAdd le c' id name w = .error (.app 8300)) ∧
    (∀ id name w c2, geoAdd le c' id name w = .ok c2 →
      Dict.get? c2.user id = some name ∧ ∀ id', id' ≠ id → Dict.get? c2.user id' = Dict.get? c'.user id') ∧
    (∀ name id, (∀ id', Dict.get? c'.user id' = some name ↔ id' = id) →
      ∀ id', Dict.get? (geoRemove le c' name).user id' =
        if id' = id then none else Dict.get? c'.user id') ∧
    (∀ name, (∀ id', Dict.get? c'.user id' ≠ some name) → geoRemove le c' name = c') ∧
    (c'.user ≠ [] → Spec.DiskAgrees c') := by
  obtain ⟨h1, h2, h3, h4⟩ := geoSteps_inv le c ops hn
  dsimp only
  generalize ops.foldl (geoStep le) c = c' at h1 h2 h3 h4 ⊢
  refine ⟨?_, ?_, ?_, ?_, h4 hdisk⟩
  · intro id hid
    refine ⟨fun v hv => h3 id v hid hv, fun name w => ?_⟩
    unfold geoAdd
    rw [if_pos (by rw [h1]; exact hid)]
    rfl
  · intro id name w c2 h
    unfold geoAdd at h
    by_cases hm : id ∈ Dict.keys c'.vars
    · rw [if_pos hm] at h; cases h
    · rw [if_neg hm] at h
      cases w with
      | error e => cases h
      | ok u =>
        have h := Except.ok.inj h
        subst h
        constructor
        · change Dict.get? (Dict.set c'.user id name) id = some name
          rw [Dict.get?_set, if_pos rfl]
        · intro id' hne
          change Dict.get? (Dict.set c'.user id name) id' = _
          rw [Dict.get?_set, if_neg (fun e => hne e.symm)]
  · intro name id hu id'
    unfold geoRemove
    cases hf : c'.user.find? (fun p => decide (p.2 = name)) with
    | none =>
      exfalso
      have hid := Dict.mem_of_get? ((hu id).2 rfl)
      have := List.find?_eq_none.1 hf _ hid
      simp at this
    | some p =>
      dsimp only
      have hp := List.find?_some hf
      have hm := List.mem_of_find?_eq_some hf
      have hpn : p.2 = name := by simpa using hp
      have hg : Dict.get? c'.user p.1 = some name := by
        rw [← hpn]
        exact Dict.get?_of_mem h2 hm
      have e := (hu p.1).1 hg
      change Dict.get? (Dict.erase c'.user p.1) id' = _
      rw [Dict.get?_erase h2, e]
      by_cases hx : id = id'
      · rw [if_pos hx, if_pos hx.symm]
      · rw [if_neg hx, if_neg (fun h => hx h.symm)]
  · intro name hu
    unfold geoRemove
    cases hf : c'.user.find? (fun p => decide (p.2 = name)) with
    | none => rfl
    | some p =>
      exfalso
      have hp := List.find?_some hf
      have hm := List.mem_of_find?_eq_some hf
      have hpn : p.2 = name := by simpa using hp
      exact hu p.1 (by rw [← hpn]; exact Dict.get?_of_mem h2 hm)

/-- Non-vacuity of C43: the registry after the very first start, one registration and one removal. -/
example : ∃ c, Conf.init (fun _ _ => true) [("g1".toList, "a.grb".toList)]
      [("description".toList, "d".toList)] none = .ok c ∧ Spec.DiskAgrees c ∧
    ([GeoOp.add "g2".toList "b.grb".toList (.ok ()), .add "g1".toList "c.grb".toList (.ok ()),
      .remove "d".toList].foldl (geoStep fun _ _ => true) c).user = [("g2".toList, "b.grb".toList)] :=
  ⟨_, rfl, ⟨_, rfl, List.mergeSort_perm _ _⟩, by decide⟩

/-- C43 fails within one process: an identifier registered by the program itself is registered again with
another file, which replaces the first. -/
theorem geo_reregistered : ∃ (c : Conf Str) (c1 c2 : Conf Str) (id f1 f2 : Str),
    Conf.init (fun _ _ => true) [] [("description".toList, "d".toList)] none = .ok c ∧
    geoAdd (fun _ _ => true) c id f1 (.ok ()) = .ok c1 ∧ Dict.get? c1.user id = some f1 ∧
    geoAdd (fun _ _ => true) c1 id f2 (.ok ()) = .ok c2 ∧ Dict.get? c2.user id = some f2 ∧ f1 ≠ f2 ∧
    -- and the file just registered is not found
    (∀ isFile folders, geoFilepath isFile c1.vars folders id = .error (.app 4000)) :=
  ⟨_, _, _, "g".toList, "a".toList, "b".toList, rfl, rfl, by decide, rfl, by decide, by decide,
    fun _ _ => rfl⟩

/-- C43 fails for a file name registered for two grids: only the first entry is removed. -/
theorem geo_remove_first_only :
    (geoRemove (fun _ _ => true) ⟨[], [("g1".toList, "z.grb".toList), ("g2".toList, "z.grb".toList)], none⟩
      "z.grb".toList).user = [("g2".toList, "z.grb".toList)] := by decide

/-! ## C46: downloading -/

/-- The names that are never downloaded. -/
def Spec.Skipped (name : Str) : Prop :=
  name = ".".toList ∨ name = "..".toList ∨ name = "readme.txt".toList

/-- Files that exist are left alone, whatever happens. -/
theorem download_keeps (fs : Folder) (remote : List (Str × Transfer)) (n c : Str)
    (h : Dict.get? fs n = some c) : Dict.get? (download fs remote).1 n = some c := by
  induction remote generalizing fs with
  | nil => exact h
  | cons p r ih =>
    obtain ⟨name, t⟩ := p
    unfold download downloadOne
    by_cases h1 : name = ".".toList ∨ name = "..".toList ∨ name = "readme.txt".toList
    · rw [if_pos h1]; exact ih fs h
    · rw [if_neg h1]
      by_cases h2 : name ∈ Dict.keys fs
      · rw [if_pos h2]; exact ih fs h
      · rw [if_neg h2]
        have hne : name ≠ n := by
          rintro rfl
          exact h2 (Dict.mem_keys_of_get? h)
        have hk : ∀ x, Dict.get? (Dict.set fs name x) n = some c := by
          intro x
          rw [Dict.get?_set, if_neg hne]; exact h
        cases t with
        | whole x => exact ih _ (hk x)
        | broken x => exact hk x

/-- **C46** (the part that holds). Downloading changes no existing file, even when it is interrupted. When no
transfer fails it ends normally, and afterwards the folder has exactly the files it had, plus every remote
file it did not have (but `.`, `..` and `readme.txt`) with its remote content. What is missing: a transfer
that fails leaves a truncated file that is never fetched again (`download_truncated_forever`). -/
theorem download_partial (fs : Folder) (remote : List (Str × Transfer)) :
    (∀ n c, Dict.get? fs n = some c → Dict.get? (download fs remote).1 n = some c) ∧
    ((∀ p ∈ remote, ∃ c, p.2 = .whole c) → (remote.map (·.1)).Nodup →
      (download fs remote).2 = true ∧
      ∀ n c, Dict.get? (download fs remote).1 n = some c ↔
        Dict.get? fs n = some c ∨
          (Dict.get? fs n = none ∧ ¬ Spec.Skipped n ∧ (n, Transfer.whole c) ∈ remote)) := by
  refine ⟨fun n c h => download_keeps fs remote n c h, ?_⟩
  intro hw hnd
  induction remote generalizing fs with
  | nil =>
    refine ⟨rfl, fun n c => ⟨fun h => Or.inl h, ?_⟩⟩
    rintro (h | ⟨-, -, h⟩)
    · exact h
    · cases h
  | cons p r ih =>
    obtain ⟨name, t⟩ := p
    obtain ⟨x, hx⟩ := hw (name, t) (by simp)
    dsimp only at hx
    subst hx
    rw [List.map_cons, List.nodup_cons] at hnd
    obtain ⟨hnr, hnd⟩ := hnd
    have hw' : ∀ p ∈ r, ∃ c, p.2 = Transfer.whole c := fun p hp => hw p (by simp [hp])
    have hnot : ∀ c, (name, Transfer.whole c) ∉ r := fun c hc => hnr (List.mem_map.2 ⟨_, hc, rfl⟩)
    by_cases h1 : Spec.Skipped name ∨ name ∈ Dict.keys fs
    · have e : download fs ((name, .whole x) :: r) = download fs r := by
        conv_lhs => unfold download downloadOne
        by_cases hs : name = ".".toList ∨ name = "..".toList ∨ name = "readme.txt".toList
        · rw [if_pos hs]
        · rw [if_neg hs, if_pos (h1.resolve_left hs)]
      rw [e]
      obtain ⟨i1, i2⟩ := ih fs hw' hnd
      refine ⟨i1, fun n c => ?_⟩
      rw [i2]
      constructor
      · rintro (h | ⟨a, b, h⟩)
        · exact Or.inl h
        · exact Or.inr ⟨a, b, by simp [h]⟩
      · rintro (h | ⟨a, b, h⟩)
        · exact Or.inl h
        · rcases List.mem_cons.1 h with h | h
          · injection h with h h'
            subst h
            rcases h1 with h1 | h1
            · exact absurd h1 b
            · exact absurd h1 (Dict.get?_eq_none_iff.1 a)
          · exact Or.inr ⟨a, b, h⟩
    · have hs : ¬ Spec.Skipped name := fun h => h1 (Or.inl h)
      have hk : name ∉ Dict.keys fs := fun h => h1 (Or.inr h)
      have e : download fs ((name, .whole x) :: r) = download (Dict.set fs name x) r := by
        conv_lhs => unfold download downloadOne
        unfold Spec.Skipped at hs
        rw [if_neg hs, if_neg hk]
      rw [e]
      obtain ⟨i1, i2⟩ := ih (Dict.set fs name x) hw' hnd
      refine ⟨i1, fun n c => ?_⟩
      rw [i2, Dict.get?_set]
      by_cases hn : name = n
      · subst hn
        rw [if_pos rfl]
        constructor
        · rintro (h | ⟨h, -⟩)
          · injection h with h
            subst h
            exact Or.inr ⟨Dict.get?_eq_none_iff.2 hk, hs, by simp⟩
          · cases h
        · rintro (h | ⟨-, -, h⟩)
          · exact absurd (Dict.mem_keys_of_get? h) hk
          · rcases List.mem_cons.1 h with h | h
            · injection h with _ h
              injection h with h
              rw [h]
              exact Or.inl rfl
            · exact absurd h (hnot c)
      · rw [if_neg hn]
        constructor
        · rintro (h | ⟨a, b, h⟩)
          · exact Or.inl h
          · exact Or.inr ⟨a, b, by simp [h]⟩
        · rintro (h | ⟨a, b, h⟩)
          · exact Or.inl h
          · rcases List.mem_cons.1 h with h | h
            · injection h with h _
              exact absurd h.symm hn
            · exact Or.inr ⟨a, b, h⟩

/-- Non-vacuity of C46: one file present, one fetched, one skipped. -/
example : (download [("a".toList, "old".toList)] [("a".toList, .whole "new".toList),
      ("readme.txt".toList, .whole "r".toList), ("b".toList, .whole "x".toList)]) =
    ([("a".toList, "old".toList), ("b".toList, "x".toList)], true) := by decide

/-- C46 fails after an interruption: the file stays truncated in all later downloads. -/
theorem download_truncated_forever (fs : Folder) (n part : Str) (r : List (Str × Transfer))
    (hs : ¬ Spec.Skipped n) (hn : Dict.get? fs n = none) (later : List (List (Str × Transfer))) :
    Dict.get? (later.foldl (fun f rem => (download f rem).1) (download fs ((n, .broken part) :: r)).1) n =
      some part := by
  have h0 : Dict.get? (download fs ((n, .broken part) :: r)).1 n = some part := by
    have e : download fs ((n, .broken part) :: r) = (Dict.set fs n part, false) := by
      unfold download downloadOne
      unfold Spec.Skipped at hs
      rw [if_neg hs, if_neg (Dict.get?_eq_none_iff.1 hn)]
    rw [e]
    dsimp only
    rw [Dict.get?_set, if_pos rfl]
  generalize (download fs ((n, .broken part) :: r)).1 = f at h0
  induction later generalizing f with
  | nil => exact h0
  | cons rem later ih => exact ih _ (download_keeps f rem n part h0)

/-! ## C81: checking the configuration -/

/-- **C81** (the part that holds). When every entry names a table, checking keeps exactly the user's entries
whose file is in the user folder, and saves them. What is missing: the file created by the program itself has
a description among its entries (`check_conf_fails`). -/
theorem check_conf_partial (le : Str → Str → Bool) (isFile : Str → Bool) (dataPath : Str)
    (c : Conf TblEntry) (hv : ∀ p ∈ c.vars, ∃ f, p.2 = .table f) (hu : ∀ p ∈ c.user, ∃ f, p.2 = .table f) :
    ∃ c', checkConf le isFile dataPath c (.ok ()) = .ok c' ∧ c'.vars = c.vars ∧
      (∀ k f, (k, TblEntry.table f) ∈ c'.user ↔
        (k, TblEntry.table f) ∈ c.user ∧ isFile (joinPath dataPath f) = true) ∧
      (c'.user ≠ [] → ∃ d, c'.disk = some (.obj d) ∧ d.Perm c'.user) := by
  have h1 : ∀ d : Dict Str TblEntry, (∀ p ∈ d, ∃ f, p.2 = .table f) → ∃ l, usedTables d = .ok l := by
    intro d hd
    induction d with
    | nil => exact ⟨[], rfl⟩
    | cons p d ih =>
      obtain ⟨f, hf⟩ := hd p (by simp)
      obtain ⟨l, hl⟩ := ih fun q hq => hd q (by simp [hq])
      unfold usedTables at hl ⊢
      refine ⟨f :: l, ?_⟩
      rw [List.mapM_cons, hl, hf]
      rfl
  let keepB : Str × TblEntry → Bool := fun p => match p.2 with
    | .table f => isFile (joinPath dataPath f)
    | .text _ => false
  have h2 : ∀ d : Dict Str TblEntry, (∀ p ∈ d, ∃ f, p.2 = .table f) →
      d.filterM (tableExists isFile dataPath) = .ok (d.filter keepB) := by
    intro d hd
    have hrev : ∀ (d acc : Dict Str TblEntry), (∀ p ∈ d, ∃ f, p.2 = .table f) →
        List.filterAuxM (tableExists isFile dataPath) d acc = .ok ((d.filter keepB).reverse ++ acc) := by
      intro d
      induction d with
      | nil => intro acc _; rfl
      | cons p d ih =>
        intro acc hd
        obtain ⟨k, e⟩ := p
        obtain ⟨f, hf⟩ := hd (k, e) (by simp)
        dsimp only at hf
        subst hf
        unfold List.filterAuxM tableExists
        dsimp only
        simp only [ok_bind]
        change List.filterAuxM (tableExists isFile dataPath) d _ = _
        rw [ih _ (fun q hq => hd q (by simp [hq]))]
        cases hb : isFile (joinPath dataPath f) with
        | true =>
          rw [List.filter_cons_of_pos (by exact hb)]
          simp [cond]
        | false =>
          rw [List.filter_cons_of_neg (by simp [keepB, hb])]
          simp [cond]
    unfold List.filterM
    rw [hrev d [] hd]
    simp [pure, Except.pure]
  obtain ⟨l, hl⟩ := h1 c.vars hv
  refine ⟨Conf.dump le { c with user := c.user.filter keepB }, ?_, rfl, ?_, ?_⟩
  · unfold checkConf
    rw [hl, h2 c.user hu]
    rfl
  · intro k f
    change (k, TblEntry.table f) ∈ c.user.filter keepB ↔ _
    rw [List.mem_filter]
  · intro hne
    obtain ⟨d', e1, e2⟩ := dumpFile_obj le (d := c.user.filter keepB) hne
    exact ⟨d', congrArg some e1, e2⟩

/-- Non-vacuity of C81: of two tables one is gone. -/
example : ∃ c', checkConf (fun _ _ => true) (fun p => decide (p = "/t/a.npy".toList)) "/t".toList
      ⟨[], [("i".toList, .table "a.npy".toList), ("j".toList, .table "b.npy".toList)], none⟩ (.ok ()) = .ok c' ∧
    c'.user = [("i".toList, .table "a.npy".toList)] := ⟨_, rfl, by decide⟩

/-- C81 fails with the files the program creates: they describe themselves in a text entry, and checking the
configuration (`-K`) ends with a bare `TypeError`. -/
theorem check_conf_fails (le : Str → Str → Bool) (isFile : Str → Bool) (dataPath descr : Str)
    (global : Dict Str TblEntry) (listing : Py Unit) (c : Conf TblEntry)
    (hc : Conf.init le global [("description".toList, .text descr)] none = .ok c) :
    checkConf le isFile dataPath c listing = .error .typeError := by
  have hvars : c.vars = Dict.update global [("description".toList, .text descr)] := by
    have := Except.ok.inj hc
    rw [← this]
  have hget : Dict.get? c.vars "description".toList = some (.text descr) := by
    rw [hvars]
    have hup : ∀ (k : Str) (e : TblEntry), Dict.get? (Dict.update global [(k, e)]) k = some e := by
      intro k e
      unfold Dict.update
      rw [List.foldl_cons, List.foldl_nil, Dict.get?_set, if_pos rfl]
    exact hup _ _
  have hmem := Dict.mem_of_get? hget
  have h1 : ∀ (k : Str) (d : Dict Str TblEntry), (k, TblEntry.text descr) ∈ d →
      usedTables d = .error .typeError := by
    intro k0 d hd
    induction d with
    | nil => cases hd
    | cons p d ih =>
      unfold usedTables at ih ⊢
      rw [List.mapM_cons]
      obtain ⟨k, e⟩ := p
      cases e with
      | text s => rfl
      | table f =>
        rcases List.mem_cons.1 hd with h | h
        · injection h with _ h; cases h
        · dsimp only
          rw [ih h]
          rfl
  unfold checkConf
  rw [h1 _ _ hmem]
  rfl

end PyG2P
