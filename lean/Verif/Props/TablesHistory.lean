import Verif.Props.Tables

/-! # C56–C59, C82 — histories of interpolation tables -/

namespace PyG2P
open Store
variable {τ : Type}

/-! ## C57 -/

/-- Table `t` is registered for `id` as file `f` of folder `d`. -/
structure Registered (d f id : Str) (t : τ) (w : Store τ) : Prop where
  file : Dict.get? w.files (d, f) = some (.whole t)
  vars : Dict.get? w.conf.vars id = some (.table f)
  user : Dict.get? w.conf.user id = some (.table f)
  nodup : (Dict.keys w.conf.user).Nodup
  disk : ∃ u, w.conf.disk = some (.obj u) ∧ (Dict.keys u).Nodup ∧ Dict.get? u id = some (.table f)

theorem set_ne_nil {κ α : Type} [DecidableEq κ] (d : Dict κ α) (k : κ) (v : α) : Dict.set d k v ≠ [] := by
  intro h0
  have : k ∈ Dict.keys (Dict.set d k v) := Dict.mem_keys_set.2 (Or.inl rfl)
  rw [h0] at this
  cases this

/-- A created table is registered. -/
theorem registered_created (le : Str → Str → Bool) (w : Store τ) (r : TblRun) (p : Path) (t : τ)
    (hw : written p = p) (hn : (Dict.keys w.conf.user).Nodup) :
    Registered p.1 p.2 r.id t (w.created le r p t) := by
  refine ⟨?_, ?_, ?_, ?_, ?_⟩
  · rw [files_created _ _ _ _ _ hw, if_pos rfl]
  · have : (w.created le r p t).conf.vars = Dict.set w.conf.vars r.id (.table p.2) := rfl
    rw [this, Dict.get?_set, if_pos rfl]
  · have : (w.created le r p t).conf.user = Dict.set w.conf.user r.id (.table p.2) := rfl
    rw [this, Dict.get?_set, if_pos rfl]
  · exact Dict.nodup_keys_set hn _ _
  · obtain ⟨d', h1, h2⟩ := dumpFile_obj le (set_ne_nil w.conf.user r.id (TblEntry.table p.2))
    have e : (w.created le r p t).conf.disk = some (Conf.dumpFile le (Dict.set w.conf.user r.id (.table p.2))) := rfl
    have hnd : (Dict.keys (Dict.set w.conf.user r.id (TblEntry.table p.2))).Nodup := Dict.nodup_keys_set hn _ _
    have hnd' : (Dict.keys d').Nodup := (h2.map _).nodup_iff.2 hnd
    refine ⟨d', by rw [e, h1], hnd', ?_⟩
    rw [Dict.get?_perm h2 hnd', Dict.get?_set, if_pos rfl]

/-- Registration of another table, or of the same one in another folder, leaves a compressed table as it is. -/
theorem registered_step {le : Str → Str → Bool} {w : Store τ} {d f id : Str} {t : τ} {r : TblRun} {p : Path} {u : τ}
    (h : Registered d f id t w) (hf : isGz f = true) (hn : NamesOK w) (hp : w.tablePath r = .ok p)
    (hne : w.ex p = false) : Registered d f id t (w.created le r p u) := by
  have hw : written p = p := written_eq (created_name hn hp)
  have hsame : r.id = id → p.2 = f := by
    rintro rfl
    rcases tablePath_spec hp with ⟨-, hv⟩ | ⟨-, -, -, -, ⟨hno, -⟩ | ⟨f', hv, e, -⟩⟩
    · rw [h.vars] at hv
      injection hv with hv
      injection hv with hv
      exact hv.symm
    · exact absurd (Dict.mem_keys_of_get? h.vars) hno
    · rw [h.vars] at hv
      injection hv with hv
      injection hv with hv
      rw [e, ← hv, if_pos hf]
  have hset : ∀ D : Dict Str TblEntry, Dict.get? D id = some (.table f) →
      Dict.get? (Dict.set D r.id (.table p.2)) id = some (.table f) := by
    intro D hD
    rw [Dict.get?_set]
    split
    · next e => rw [hsame e]
    · exact hD
  refine ⟨?_, hset _ h.vars, hset _ h.user, Dict.nodup_keys_set h.nodup _ _, ?_⟩
  · rw [files_created _ _ _ _ _ hw, if_neg, h.file]
    rintro rfl
    exact of_decide_eq_false hne (Dict.mem_keys_of_get? h.file)
  · obtain ⟨d', h1, h2⟩ := dumpFile_obj le (set_ne_nil w.conf.user r.id (TblEntry.table p.2))
    have e : (w.created le r p u).conf.disk = some (Conf.dumpFile le (Dict.set w.conf.user r.id (.table p.2))) := rfl
    have hnd : (Dict.keys (Dict.set w.conf.user r.id (TblEntry.table p.2))).Nodup := Dict.nodup_keys_set h.nodup _ _
    have hnd' : (Dict.keys d').Nodup := (h2.map _).nodup_iff.2 hnd
    refine ⟨d', by rw [e, h1], hnd', ?_⟩
    rw [Dict.get?_perm h2 hnd']
    exact hset _ h.user

theorem registered_act (le : Str → Str → Bool) (global template : Dict Str TblEntry) {w : Store τ} {d f id : Str} {t : τ}
    (h : Registered d f id t w) (hf : isGz f = true) (hn : NamesOK w) (a : Act τ) :
    Registered d f id t (act le global template w a) := by
  have run : ∀ r build out, (out = w.scipy le r build ∨ ∃ c, out = w.grib le c r build) →
      Registered d f id t out.2 := by
    intro r build out ho
    rcases run_spec le w r build out ho with ⟨e, rfl⟩ | ⟨p, hp, ⟨-, rfl⟩ | ⟨u, -, hne, -, ho, -, -⟩⟩
    · exact h
    · rcases read_spec w p with ⟨t, -, e⟩ | ⟨-, t, -, e⟩ | ⟨-, e', -, e⟩ <;> rw [e]
      · exact h
      · exact ⟨h.file, h.vars, h.user, h.nodup, h.disk⟩
      · exact h
    · rw [ho]
      exact registered_step h hf hn hp hne
  cases a with
  | scipy r b => exact run r b _ (Or.inl rfl)
  | grib c r b => exact run r b _ (Or.inr ⟨c, rfl⟩)
  | restart =>
    obtain ⟨u, hd, hun, hu⟩ := h.disk
    unfold Store.act
    dsimp only
    unfold Store.restart
    rw [hd]
    refine ⟨h.file, ?_, hu, hun, ⟨u, rfl, hun, hu⟩⟩
    change Dict.get? (Dict.update global u) id = _
    rw [Dict.get?_update, Dict.lastPair_eq_get? hun, hu]
    rfl

theorem registered_after (le : Str → Str → Bool) (global template : Dict Str TblEntry) (hg : NpyNames global)
    (ht : NpyNames template) {d f id : Str} {t : τ} (hf : isGz f = true) : ∀ (h : List (Act τ)) (w : Store τ),
      Registered d f id t w → CacheOK w → NamesOK w → Registered d f id t (after le global template w h) := by
  intro h
  induction h with
  | nil => intro w hr _ _; exact hr
  | cons a h ih =>
    intro w hr hc hn
    obtain ⟨hc', hn'⟩ := act_inv le global template hg ht w a hc hn
    exact ih _ (registered_act le global template hr hf hn a) hc' hn'

/-- A registered table in the user folder of a run is the one used. -/
theorem registered_used {w : Store τ} {d f : Str} {t : τ} {r : TblRun} (h : Registered d f r.id t w)
    (hc : CacheOK w) (hd : r.userDir = some d) (hne : d ≠ []) (le : Str → Str → Bool) (build : Py τ)
    (out : Py τ × Store τ) (ho : out = w.scipy le r build ∨ ∃ c, out = w.grib le c r build) :
    out.1 = .ok t ∧ out.2.files = w.files ∧ out.2.conf = w.conf := by
  have hex : w.ex (d, f) = true := decide_eq_true (Dict.mem_keys_of_get? h.file)
  have hexa : w.exAny (d, f) = true := by unfold Store.exAny; rw [hex]; rfl
  have hp : w.tablePath r = .ok (d, f) := by
    unfold Store.tablePath
    rw [h.vars]
    dsimp only
    unfold Store.registeredPath
    rw [hd]
    dsimp only
    rw [if_pos ⟨hne, hexa⟩]
  have hr : out = w.read (d, f) := by
    rcases ho with rfl | ⟨c, rfl⟩
    · unfold Store.scipy
      rw [hp]
      dsimp only
      unfold Store.scipyAt
      rw [if_pos hexa]
    · unfold Store.grib
      rw [hp]
      dsimp only
      unfold Store.gribAt
      rw [if_pos hex]
  rw [hr]
  have hl := load_of_get h.file
  rcases read_spec w (d, f) with ⟨t', h1, e⟩ | ⟨-, t', h1, e⟩ | ⟨-, e', h1, e⟩
  · rw [e]
    have := hc _ _ h1
    rw [hl] at this
    exact ⟨this.symm ▸ rfl, rfl, rfl⟩
  · rw [e]
    rw [hl] at h1
    exact ⟨h1.symm ▸ rfl, rfl, rfl⟩
  · rw [hl] at h1
    cases h1

/-- The registries never hold a key twice. -/
def Distinct (w : Store τ) : Prop :=
  (Dict.keys w.conf.user).Nodup ∧ ∀ u, w.conf.disk = some (.obj u) → (Dict.keys u).Nodup

theorem distinct_act (le : Str → Str → Bool) (global template : Dict Str TblEntry) (hu2 : (Dict.keys template).Nodup)
    (v : Store τ) (a : Act τ) (hv : Distinct v) : Distinct (act le global template v a) := by
  obtain ⟨hv1, hv2⟩ := hv
  have hcr : ∀ (r : TblRun) (p : Path) (t : τ), (Dict.keys (v.created le r p t).conf.user).Nodup ∧
      ∀ u, (v.created le r p t).conf.disk = some (.obj u) → (Dict.keys u).Nodup := by
    intro r p t
    have hnd : (Dict.keys (Dict.set v.conf.user r.id (TblEntry.table p.2))).Nodup :=
      Dict.nodup_keys_set hv1 _ _
    refine ⟨hnd, ?_⟩
    intro u hu
    obtain ⟨d', h1, h2⟩ := dumpFile_obj le (set_ne_nil v.conf.user r.id (TblEntry.table p.2))
    have e : (v.created le r p t).conf.disk =
      some (Conf.dumpFile le (Dict.set v.conf.user r.id (.table p.2))) := rfl
    rw [e, h1] at hu
    injection hu with hu
    injection hu with hu
    rw [← hu]
    exact (h2.map _).nodup_iff.2 hnd
  have hrun : ∀ r build out, (out = v.scipy le r build ∨ ∃ c, out = v.grib le c r build) →
      (Dict.keys out.2.conf.user).Nodup ∧ ∀ u, out.2.conf.disk = some (.obj u) → (Dict.keys u).Nodup := by
    intro r build out ho
    rcases run_spec le v r build out ho with ⟨e, rfl⟩ | ⟨p, hp, ⟨-, rfl⟩ | ⟨u, -, hne, -, ho, -, -⟩⟩
    · exact ⟨hv1, hv2⟩
    · rcases read_spec v p with ⟨t, -, e⟩ | ⟨-, t, -, e⟩ | ⟨-, e', -, e⟩ <;> rw [e] <;> exact ⟨hv1, hv2⟩
    · rw [ho]; exact hcr r p u
  cases a with
  | scipy r b => exact hrun r b _ (Or.inl rfl)
  | grib c r b => exact hrun r b _ (Or.inr ⟨c, rfl⟩)
  | restart =>
    unfold Store.act
    dsimp only
    unfold Store.restart
    cases hdk : v.conf.disk with
    | none =>
      refine ⟨hu2, ?_⟩
      intro u hu
      change some (Conf.dumpFile le template) = some (.obj u) at hu
      injection hu with hu
      unfold Conf.dumpFile at hu
      split at hu
      · cases hu
      · injection hu with hu
        rw [← hu]
        exact ((List.mergeSort_perm _ _).map _).nodup_iff.2 hu2
    | some f =>
      cases f with
      | obj u =>
        refine ⟨hv2 u hdk, ?_⟩
        intro u' hu'
        change some (JFile.obj u) = some (.obj u') at hu'
        injection hu' with hu'
        injection hu' with hu'
        rw [← hu']
        exact hv2 u hdk
      | text s => exact ⟨hv1, hv2⟩
      | invalid => exact ⟨hv1, hv2⟩

theorem distinct_after (le : Str → Str → Bool) (global template : Dict Str TblEntry)
    (hu2 : (Dict.keys template).Nodup) : ∀ (h : List (Act τ)) (v : Store τ), Distinct v →
      Distinct (after le global template v h) := by
  intro h
  induction h with
  | nil => intro v hv; exact hv
  | cons a h ih => intro v hv; exact ih _ (distinct_act le global template hu2 v a hv)

/-- A lookup that creates a table registers it. -/
theorem created_registered (le : Str → Str → Bool) {w : Store τ} (hn : NamesOK w)
    (hnod : (Dict.keys w.conf.user).Nodup) {r : TblRun} {build : Py τ} {out : Py τ × Store τ}
    (ho : out = w.scipy le r build ∨ ∃ c, out = w.grib le c r build) {t : τ} (hout : out.1 = .ok t)
    (hcreate : ∀ p, w.tablePath r = .ok p → w.exAny p = false) :
    ∃ p : Path, isGz p.2 = true ∧ r.userDir = some p.1 ∧ Registered p.1 p.2 r.id t out.2 := by
  rcases run_spec le w r build out ho with ⟨e, rfl⟩ | ⟨p, hp, ⟨hx, -⟩ | ⟨u, hb, hnex, -, hst, hor, -⟩⟩
  · cases hout
  · rw [hcreate p hp] at hx
    cases hx
  · have hu : u = t := by
      rcases hor with h | ⟨h, -⟩
      · rw [hout] at h
        exact (Except.ok.inj h).symm
      · rw [hout] at h
        cases h
    subst hu
    have hwp := written_eq (created_name hn hp)
    have hgz : isGz p.2 = true ∧ r.userDir = some p.1 := by
      rcases tablePath_spec hp with ⟨hx, -⟩ | ⟨hgz, -, -, hd, -⟩
      · rw [hcreate p hp] at hx
        cases hx
      · exact ⟨hgz, hd⟩
    refine ⟨p, hgz.1, hgz.2, ?_⟩
    rw [hst]
    exact registered_created le w r p u hwp hnod

/-- **C57.** Starting from any state and after any history of runs and restarts, let a run `r` create a table
`t` (there was no file at its path). Then after any further history of runs (of other data, other targets, other
folders) and restarts, `r` uses the same table `t` again, without building one and without changing files or
registry. -/
theorem created_table_reused (le : Str → Str → Bool) (global template : Dict Str TblEntry) (hg : NpyNames global)
    (ht : NpyNames template) (w0 : Store τ) (h0 : w0.cache = []) (hn0 : NamesOK w0)
    (hu0 : (Dict.keys w0.conf.user).Nodup) (hu1 : ∀ u, w0.conf.disk = some (.obj u) → (Dict.keys u).Nodup)
    (hu2 : (Dict.keys template).Nodup)
    (h1 h2 : List (Act τ)) (r : TblRun) (d : Str) (hd : r.userDir = some d) (hne : d ≠ []) (build build' : Py τ)
    (w : Store τ) (hw : w = after le global template w0 h1) (out : Py τ × Store τ)
    (ho : out = w.scipy le r build ∨ ∃ c, out = w.grib le c r build) (t : τ) (hout : out.1 = .ok t)
    (hcreate : ∀ p, w.tablePath r = .ok p → w.exAny p = false)
    (out' : Py τ × Store τ) (w' : Store τ) (hw' : w' = after le global template out.2 h2)
    (ho' : out' = w'.scipy le r build' ∨ ∃ c, out' = w'.grib le c r build') :
    out'.1 = .ok t ∧ out'.2.files = w'.files ∧ out'.2.conf = w'.conf := by
  obtain ⟨hc, hn⟩ := after_inv le global template hg ht h1 w0 (by intro p t hp; rw [h0] at hp; cases hp) hn0
  rw [← hw] at hc hn
  -- the keys of the user registry stay distinct
  have hnod : (Dict.keys w.conf.user).Nodup := by
    rw [hw]
    exact (distinct_after le global template hu2 h1 w0 ⟨hu0, hu1⟩).1
  obtain ⟨p, hgz, hpd, hreg⟩ := created_registered le hn hnod ho hout hcreate
  obtain ⟨hc1, hn1⟩ : CacheOK out.2 ∧ NamesOK out.2 := by
    rcases ho with rfl | ⟨c, rfl⟩
    · exact act_inv le global template hg ht w (.scipy r build) hc hn
    · exact act_inv le global template hg ht w (.grib c r build) hc hn
  have hreg' := registered_after le global template hg ht hgz h2 out.2 hreg hc1 hn1
  have hc' := (after_inv le global template hg ht h2 out.2 hc1 hn1).1
  rw [← hw'] at hreg' hc'
  have hd' : p.1 = d := by
    rw [hd] at hpd
    exact (Option.some.inj hpd).symm
  exact registered_used hreg' hc' hpd (by rw [hd']; exact hne) le build' out' ho'


namespace Demo

/-- A run that may create tables in `/u`. -/
def tblRun (grid target : String) (create : Bool) : TblRun :=
  { create := create, write := .ok (), userDir := some "/u".toList, globalDir := some "/g".toList
    source := "rain".toList, targetSize := 4, suffix := "scipy_nearest".toList, gridId := grid.toList
    target := target.toList }

/-- A store without tables. -/
def emptyStore : Store Nat := ⟨⟨[], [], none⟩, [], []⟩

end Demo

/-- The first run on an empty store. -/
theorem scipy_new (le : Str → Str → Bool) (w : Store τ) (r : TblRun) (d : Str) (t : τ)
    (hid : r.id ∉ Dict.keys w.conf.vars) (hc : r.create = true) (hw : r.write = .ok ())
    (hd : r.userDir = some d) (hzz : ∀ q ∈ Dict.keys w.files, ∀ s : Str, q.2 ≠ s ++ ".gz".toList ++ ".gz".toList) :
    ∃ k, w.tablePath r = .ok (d, r.name k) ∧ w.exAny (d, r.name k) = false ∧
      w.scipy le r (.ok t) = (.ok t, w.created le r (d, r.name k) t) := by
  obtain ⟨k, hp, hk, -⟩ := new_table_name w r d hid hc hw hd
  have hp' : w.tablePath r = .ok (d, r.name k) := by
    rw [hp]
    congr 2
    unfold TblRun.name tableName
    simp only [List.append_assoc]
    rfl
  have hz : gz (d, r.name k) ∉ Dict.keys w.files := by
    intro hm
    obtain ⟨s, hs⟩ : ".gz".toList <:+ r.name k := by
      have := isGz_name r k
      unfold isGz at this
      rwa [List.isSuffixOf_iff_suffix] at this
    exact hzz _ hm s (by unfold Store.gz; rw [hs])
  have hx : w.exAny (d, r.name k) = false := by
    unfold Store.exAny Store.ex
    rw [decide_eq_false hk, decide_eq_false hz]
    rfl
  refine ⟨k, hp', hx, ?_⟩
  unfold Store.scipy
  rw [hp']
  dsimp only
  unfold Store.scipyAt
  rw [if_neg (by rw [hx]; decide), if_pos hc, hw]

/-- Non-vacuity of C57: on an empty store, a first run creates table 5; another run, for another grid, creates
table 6; after a restart the first run still gives 5, though building would now give 8. -/
example (le : Str → Str → Bool) : ∃ out out2 : Py Nat × Store Nat,
    out = Demo.emptyStore.scipy le (Demo.tblRun "a" "t" true) (.ok 5) ∧ out.1 = .ok 5 ∧
    out2 = (after le [] [] out.2 [.scipy (Demo.tblRun "b" "t" true) (.ok 6), .restart]).scipy le
      (Demo.tblRun "a" "t" true) (.ok 8) ∧ out2.1 = .ok 5 := by
  have hid : (Demo.tblRun "a" "t" true).id ∉ Dict.keys Demo.emptyStore.conf.vars := by intro h; cases h
  obtain ⟨k, hp, hx, hs⟩ := scipy_new le Demo.emptyStore (Demo.tblRun "a" "t" true) "/u".toList 5 hid rfl rfl rfl
    (by intro q hq; cases hq)
  have hn : NpyNames ([] : Dict Str TblEntry) := by intro q hq; cases hq
  refine ⟨_, _, rfl, by rw [hs], rfl, ?_⟩
  exact (created_table_reused le [] [] hn hn Demo.emptyStore rfl ⟨hn, hn, (by intro u hu; cases hu)⟩ List.nodup_nil
    (by intro u hu; cases hu) List.nodup_nil [] _ (Demo.tblRun "a" "t" true) "/u".toList rfl (by decide) (.ok 5) (.ok 8)
    Demo.emptyStore rfl _ (Or.inl rfl) 5 (by rw [hs])
    (by intro p hp'; rw [hp] at hp'; rw [← Except.ok.inj hp']; exact hx) _ _ rfl (Or.inl rfl)).1

/-! ## C56 -/

/-- **C56** (the part that holds, for the scipy methods with both folders set and no doubly compressed names). A
registered table is taken from the first existing of the four files: plain and compressed in the user folder,
plain and compressed in the global one. If there is none it is created, under the registered name (compressed),
in the user folder; without permission to create, the run fails with code 8100. What is missing: the GRIB methods
ignore compressed tables of plain names (`grib_ignores_compressed`), and without a global folder the lookup raises
`TypeError` (`no_global_folder`). -/
theorem table_lookup_partial (le : Str → Str → Bool) (w : Store τ) (r : TblRun) (f d g : Str) (build : Py τ)
    (hreg : Dict.get? w.conf.vars r.id = some (.table f)) (hd : r.userDir = some d) (hne : d ≠ [])
    (hg : r.globalDir = some g) (hc : w.cache = [])
    (hzz : ∀ q ∈ Dict.keys w.files, ∀ s : Str, q.2 ≠ s ++ ".gz".toList ++ ".gz".toList) :
    (∀ c t, [(d, f), (d, f ++ ".gz".toList), (g, f), (g, f ++ ".gz".toList)].find? (fun q => decide (q ∈ Dict.keys w.files)) =
        some c → Dict.get? w.files c = some (.whole t) →
      (w.scipy le r build).1 = .ok t ∧ (w.scipy le r build).2.files = w.files ∧
        (w.scipy le r build).2.conf = w.conf) ∧
    ([(d, f), (d, f ++ ".gz".toList), (g, f), (g, f ++ ".gz".toList)].find? (fun q => decide (q ∈ Dict.keys w.files)) =
        none →
      (r.create = false → w.scipy le r build = (.error (.app 8100), w)) ∧
      (∀ t, r.create = true → r.write = .ok () → build = .ok t →
        (w.scipy le r build).1 = .ok t ∧
        ∃ f', f' = (if isGz f then f else f ++ ".gz".toList) ∧
          Dict.get? (w.scipy le r build).2.files (d, f') = some (.whole t) ∧
          Dict.get? (w.scipy le r build).2.conf.vars r.id = some (.table f'))) := by
  have hzz' : ∀ (a : Str), isGz f = true → (a, f ++ ".gz".toList) ∉ Dict.keys w.files := by
    intro a hf hm
    unfold isGz at hf
    rw [List.isSuffixOf_iff_suffix] at hf
    obtain ⟨s, hs⟩ := hf
    exact hzz _ hm s (by rw [hs])
  have hread : ∀ p, (w.read p).1 = w.loadAny p ∧ (w.read p).2.files = w.files ∧ (w.read p).2.conf = w.conf := by
    intro p
    rcases read_spec w p with ⟨t, h1, e⟩ | ⟨-, t, h1, e⟩ | ⟨-, e', h1, e⟩
    · rw [hc] at h1; cases h1
    · rw [e, h1]; exact ⟨rfl, rfl, rfl⟩
    · rw [e, h1]; exact ⟨rfl, rfl, rfl⟩
  -- reading `(a, f)` when it exists plain or compressed
  have hload : ∀ a c t, [(a, f), (a, f ++ ".gz".toList)].find? (fun q => decide (q ∈ Dict.keys w.files)) = some c →
      Dict.get? w.files c = some (.whole t) → w.exAny (a, f) = true ∧ w.loadAny (a, f) = .ok t := by
    intro a c t hfind hct
    rw [List.find?_cons] at hfind
    by_cases h1 : (a, f) ∈ Dict.keys w.files
    · rw [decide_eq_true h1] at hfind
      have hfind := Option.some.inj hfind
      subst hfind
      have : w.ex (a, f) = true := decide_eq_true h1
      exact ⟨by unfold Store.exAny; rw [this]; rfl, load_of_get hct⟩
    · rw [decide_eq_false h1] at hfind
      dsimp only at hfind
      rw [List.find?_cons] at hfind
      by_cases h2 : (a, f ++ ".gz".toList) ∈ Dict.keys w.files
      · rw [decide_eq_true h2] at hfind
        have hfind := Option.some.inj hfind
        subst hfind
        have hnf : isGz f = false := by
          cases hf : isGz f with
          | false => rfl
          | true => exact absurd h2 (hzz' a hf)
        have e1 : w.ex (a, f) = false := decide_eq_false h1
        have e2 : w.ex (gz (a, f)) = true := decide_eq_true h2
        refine ⟨by unfold Store.exAny; rw [e2, Bool.or_true], ?_⟩
        unfold Store.loadAny
        rw [if_neg (by dsimp only; rw [hnf]; decide), if_neg (by rw [e1]; decide), if_pos e2]
        unfold Store.load Store.gz
        rw [hct]
      · rw [decide_eq_false h2] at hfind
        cases hfind
  have hno : ∀ a, [(a, f), (a, f ++ ".gz".toList)].find? (fun q => decide (q ∈ Dict.keys w.files)) = none →
      w.exAny (a, f) = false := by
    intro a hn
    have h1 := List.find?_eq_none.1 hn (a, f) (by simp)
    have h2 := List.find?_eq_none.1 hn (a, f ++ ".gz".toList) (by simp)
    unfold Store.exAny Store.ex Store.gz
    rw [decide_eq_false (by simpa using h1), decide_eq_false (by simpa using h2)]
    rfl
  have hpath : w.tablePath r = if w.exAny (d, f) = true then .ok (d, f) else
      if w.exAny (g, f) = true then .ok (g, f) else Store.recreatePath r f := by
    unfold Store.tablePath
    rw [hreg]
    dsimp only
    unfold Store.registeredPath
    rw [hd]
    dsimp only
    by_cases hx : w.exAny (d, f) = true
    · rw [if_pos ⟨hne, hx⟩, if_pos hx]
    · rw [if_neg (fun h => hx h.2), if_neg hx]
      unfold Store.globalPath
      rw [hg]
      rfl
  have hsplit : [(d, f), (d, f ++ ".gz".toList), (g, f), (g, f ++ ".gz".toList)] =
      [(d, f), (d, f ++ ".gz".toList)] ++ [(g, f), (g, f ++ ".gz".toList)] := rfl
  rw [hsplit, List.find?_append]
  constructor
  · intro c t hf hct
    have main : ∀ p, w.tablePath r = .ok p → w.exAny p = true → w.loadAny p = .ok t →
        (w.scipy le r build).1 = .ok t ∧ (w.scipy le r build).2.files = w.files ∧
          (w.scipy le r build).2.conf = w.conf := by
      intro p hp hx hl
      have : w.scipy le r build = w.read p := by
        unfold Store.scipy
        rw [hp]
        dsimp only
        unfold Store.scipyAt
        rw [if_pos hx]
      rw [this]
      obtain ⟨h1, h2, h3⟩ := hread p
      exact ⟨by rw [h1, hl], h2, h3⟩
    cases hu : [(d, f), (d, f ++ ".gz".toList)].find? (fun q => decide (q ∈ Dict.keys w.files)) with
    | some c' =>
      rw [hu] at hf
      have hf := Option.some.inj hf
      subst hf
      obtain ⟨hx, hl⟩ := hload d c' t hu hct
      exact main (d, f) (by rw [hpath, if_pos hx]) hx hl
    | none =>
      rw [hu] at hf
      obtain ⟨hx, hl⟩ := hload g c t hf hct
      have hx' := hno d hu
      exact main (g, f) (by rw [hpath, if_neg (by rw [hx']; decide), if_pos hx]) hx hl
  · intro hf
    rw [Option.or_eq_none_iff] at hf
    have hxd := hno d hf.1
    have hxg := hno g hf.2
    rw [if_neg (by rw [hxd]; decide), if_neg (by rw [hxg]; decide)] at hpath
    constructor
    · intro hcr
      unfold Store.scipy
      rw [hpath]
      unfold Store.recreatePath
      rw [if_pos hcr]
      rfl
    · intro t hcr hwr hb
      have hp : w.tablePath r = .ok (d, if isGz f then f else f ++ ".gz".toList) := by
        rw [hpath]
        unfold Store.recreatePath
        rw [if_neg (by rw [hcr]; decide), hwr, hd]
        rfl
      have hgz : isGz (if isGz f then f else f ++ ".gz".toList) = true := by
        split
        · assumption
        · exact isGz_append _
      have hx : w.exAny (d, if isGz f then f else f ++ ".gz".toList) = false := by
        unfold Store.exAny Store.ex at hxd
        obtain ⟨h1, h2⟩ := Bool.or_eq_false_iff.1 hxd
        have h1 := of_decide_eq_false h1
        have h2 := of_decide_eq_false h2
        unfold Store.exAny Store.ex
        split
        · rw [decide_eq_false h1, decide_eq_false h2]; rfl
        · rw [decide_eq_false (p := (d, f ++ ".gz".toList) ∈ _) h2, decide_eq_false]
          · rfl
          · intro hm
            exact hzz _ hm f rfl
      have hs : w.scipy le r build = (.ok t, w.created le r (d, if isGz f then f else f ++ ".gz".toList) t) := by
        unfold Store.scipy
        rw [hp]
        dsimp only
        unfold Store.scipyAt
        rw [if_neg (by rw [hx]; decide), if_pos hcr, hwr, hb]
      rw [hs]
      refine ⟨rfl, _, rfl, ?_, ?_⟩
      · rw [files_created _ _ _ _ _ (written_eq (Or.inl hgz)), if_pos rfl]
      · change Dict.get? (Dict.set w.conf.vars r.id (.table _)) r.id = _
        rw [Dict.get?_set, if_pos rfl]

/-- **C56 is violated** by the GRIB methods: a table registered under a plain name (as most of the global
registry) and present only compressed is not found, and without permission to create tables every run fails. -/
theorem grib_ignores_compressed (le : Str → Str → Bool) (checks : Bool) (w : Store τ) (r : TblRun) (f d : Str)
    (build : Py τ) (hreg : Dict.get? w.conf.vars r.id = some (.table f)) (hd : r.userDir = some d) (hne : d ≠ [])
    (hx : (d, f) ∉ Dict.keys w.files) (hz : (d, f ++ ".gz".toList) ∈ Dict.keys w.files) (hc : r.create = false) :
    w.grib le checks r build = (.error (.app 8100), w) := by
  have e1 : w.ex (d, f) = false := decide_eq_false hx
  have e2 : w.ex (gz (d, f)) = true := decide_eq_true hz
  have hp : w.tablePath r = .ok (d, f) := by
    unfold Store.tablePath
    rw [hreg]
    dsimp only
    unfold Store.registeredPath
    rw [hd]
    dsimp only
    rw [if_pos ⟨hne, by unfold Store.exAny; rw [e2, Bool.or_true]⟩]
  unfold Store.grib
  rw [hp]
  dsimp only
  unfold Store.gribAt
  rw [if_neg (by rw [e1]; decide), if_neg (by rw [hc]; decide)]
  rfl

/-- **C56 is violated** without a global folder: a registered table whose file is missing is neither created nor
reported with code 8100. -/
theorem no_global_folder (le : Str → Str → Bool) (w : Store τ) (r : TblRun) (f d : Str) (build : Py τ)
    (hreg : Dict.get? w.conf.vars r.id = some (.table f)) (hd : r.userDir = some d) (hg : r.globalDir = none)
    (hx : (d, f) ∉ Dict.keys w.files) (hz : (d, f ++ ".gz".toList) ∉ Dict.keys w.files) :
    w.scipy le r build = (.error .typeError, w) := by
  have e1 : w.exAny (d, f) = false := by
    unfold Store.exAny Store.ex Store.gz
    rw [decide_eq_false hx, decide_eq_false hz]
    rfl
  have hp : w.tablePath r = .error .typeError := by
    unfold Store.tablePath
    rw [hreg]
    dsimp only
    unfold Store.registeredPath
    rw [hd]
    dsimp only
    rw [if_neg (by rintro ⟨-, h⟩; rw [e1] at h; cases h)]
    unfold Store.globalPath
    rw [hg]
    rfl
  unfold Store.scipy
  rw [hp]

/-! ## C59 -/

/-- **C59 is violated** when something else changes a loaded file: the old table is used on. -/
theorem cache_stale (w : Store τ) (p : Path) (t t' : τ) (h : Dict.get? w.cache p = some t) :
    ∃ w' : Store τ, w' = { w with files := Dict.set w.files p (.whole t') } ∧
      Dict.get? w'.files p = some (.whole t') ∧ (w'.read p).1 = .ok t := by
  refine ⟨_, rfl, ?_, ?_⟩
  · rw [Dict.get?_set, if_pos rfl]
  · unfold Store.read
    rw [h]

end PyG2P
