import Verif.Props.TablesHistory

/-! # C58, C82 — tables are not shared; interrupted runs -/

namespace PyG2P
open Store
variable {τ : Type}

/-! ## Non-vacuity of C56, C59 -/

/-- C56: a table registered as `x.npy`, present compressed in the global folder only. -/
example : ∃ w : Store Nat,
    Dict.get? w.conf.vars (Demo.tblRun "a" "t" false).id = some (.table "x.npy".toList) ∧
    (w.scipy (fun _ _ => true) (Demo.tblRun "a" "t" false) (.ok 0)).1 = .ok 5 := by
  refine ⟨⟨⟨[((Demo.tblRun "a" "t" false).id, .table "x.npy".toList)], [], none⟩,
    [(("/g".toList, "x.npy.gz".toList), .whole 5)], []⟩, by decide +kernel, by decide +kernel⟩

/-- C59: a table read twice, the second time from memory. -/
example : ∃ w : Store Nat, (w.read ("/u".toList, "x.npy".toList)).1 = .ok 5 ∧
    ((w.read ("/u".toList, "x.npy".toList)).2.read ("/u".toList, "x.npy".toList)).1 = .ok 5 :=
  ⟨⟨⟨[], [], none⟩, [(("/u".toList, "x.npy.gz".toList), .whole 5)], []⟩, by decide +kernel, by decide +kernel⟩

/-! ## C58: histories -/

/-- Every registered table is a compressed file of folder `d`, built for the identifier it is registered for. -/
def Owned (owner : τ → Str) (d : Str) (w : Store τ) (D : Dict Str TblEntry) : Prop :=
  ∀ q ∈ D, ∀ f, q.2 = .table f → isGz f = true ∧
    ∃ t, Dict.get? w.files (d, f) = some (.whole t) ∧ owner t = q.1

/-- An action of a user who always works with folder `d`, building tables for the identifier of the run. -/
def OwnAct (owner : τ → Str) (d : Str) : Act τ → Prop
  | .scipy r b => r.userDir = some d ∧ ∀ t, b = .ok t → owner t = r.id
  | .grib _ r b => r.userDir = some d ∧ ∀ t, b = .ok t → owner t = r.id
  | .restart => True

/-- All three copies of the registry are owned. -/
structure OwnedAll (owner : τ → Str) (d : Str) (w : Store τ) : Prop where
  vars : Owned owner d w w.conf.vars
  user : Owned owner d w w.conf.user
  disk : ∀ u, w.conf.disk = some (.obj u) → Owned owner d w u

theorem Owned.names {owner : τ → Str} {d : Str} {w : Store τ} {D : Dict Str TblEntry} (h : Owned owner d w D) :
    NpyNames D := fun q hq f hf => Or.inl (h q hq f hf).1

theorem OwnedAll.names {owner : τ → Str} {d : Str} {w : Store τ} (h : OwnedAll owner d w) : NamesOK w :=
  ⟨h.vars.names, h.user.names, fun u hu => (h.disk u hu).names⟩

theorem owned_run {owner : τ → Str} {d : Str} (hne : d ≠ []) {le : Str → Str → Bool} {w : Store τ} {r : TblRun}
    {build : Py τ} {out : Py τ × Store τ} (ho : out = w.scipy le r build ∨ ∃ c, out = w.grib le c r build)
    (hd : r.userDir = some d) (hb : ∀ t, build = .ok t → owner t = r.id) (hc : CacheOK w)
    (hO : OwnedAll owner d w) : OwnedAll owner d out.2 ∧ ∀ t, out.1 = .ok t → owner t = r.id := by
  have hreg : ∀ f, Dict.get? w.conf.vars r.id = some (.table f) → w.tablePath r = .ok (d, f) ∧
      ∃ t, Dict.get? w.files (d, f) = some (.whole t) ∧ owner t = r.id := by
    intro f hf
    obtain ⟨-, t, h1, h2⟩ := hO.vars _ (Dict.mem_of_get? hf) f rfl
    refine ⟨?_, t, h1, h2⟩
    have hex : w.exAny (d, f) = true := by
      unfold Store.exAny
      rw [show w.ex (d, f) = true from decide_eq_true (Dict.mem_keys_of_get? h1)]
      rfl
    unfold Store.tablePath
    rw [hf]
    dsimp only
    unfold Store.registeredPath
    rw [hd]
    dsimp only
    rw [if_pos ⟨hne, hex⟩]
  -- a path is the registered file, which exists, or a new one, which does not
  have hcases : ∀ p, w.tablePath r = .ok p →
      (∃ t, Dict.get? w.files p = some (.whole t) ∧ owner t = r.id) ∨
      (isGz p.2 = true ∧ p.1 = d ∧ w.ex p = false) := by
    intro p hp
    have both : ∀ f, Dict.get? w.conf.vars r.id = some (.table f) →
        ∃ t, Dict.get? w.files p = some (.whole t) ∧ owner t = r.id := by
      intro f hf
      obtain ⟨hp', t, h1, h2⟩ := hreg f hf
      rw [hp] at hp'
      rw [Except.ok.inj hp']
      exact ⟨t, h1, h2⟩
    rcases tablePath_spec hp with ⟨-, hv⟩ | ⟨hgz, -, -, hd', ⟨-, hnx, -⟩ | ⟨f, hf, -, -⟩⟩
    · exact Or.inl (both _ hv)
    · rw [hd] at hd'
      exact Or.inr ⟨hgz, (Option.some.inj hd').symm, hnx⟩
    · exact Or.inl (both _ hf)
  rcases run_spec le w r build out ho with ⟨e, rfl⟩ | ⟨p, hp, ⟨hx, rfl⟩ | ⟨u, hbu, hnex, -, hst, hor, -⟩⟩
  · exact ⟨hO, fun t ht => by cases ht⟩
  · have hfc : (w.read p).2.files = w.files ∧ (w.read p).2.conf = w.conf ∧
        ∀ t, (w.read p).1 = .ok t → w.loadAny p = .ok t := by
      rcases read_spec w p with ⟨t, h1, e⟩ | ⟨-, t, h1, e⟩ | ⟨-, e', h1, e⟩
      · rw [e]
        exact ⟨rfl, rfl, fun t' ht' => by rw [← Except.ok.inj ht']; exact hc p t h1⟩
      · rw [e]
        exact ⟨rfl, rfl, fun t' ht' => by rw [← Except.ok.inj ht']; exact h1⟩
      · rw [e]
        exact ⟨rfl, rfl, fun t' ht' => by cases ht'⟩
    obtain ⟨h1, h2, h3⟩ := hfc
    refine ⟨⟨?_, ?_, ?_⟩, ?_⟩
    · rw [h2]; unfold Owned; rw [h1]; exact hO.vars
    · rw [h2]; unfold Owned; rw [h1]; exact hO.user
    · intro u hu; rw [h2] at hu; unfold Owned; rw [h1]; exact hO.disk u hu
    · intro t ht
      have hl := h3 t ht
      rcases hcases p hp with ⟨t', h4, h5⟩ | ⟨hgz, -, hnx⟩
      · rw [load_of_get h4] at hl
        rw [← Except.ok.inj hl]
        exact h5
      · unfold Store.loadAny at hl
        rw [if_pos hgz] at hl
        exact absurd (Dict.mem_keys_of_get? (load_ok hl)) (of_decide_eq_false hnx)
  · rcases hcases p hp with ⟨t', h4, -⟩ | ⟨hgz, hpd, -⟩
    · exact absurd (Dict.mem_keys_of_get? h4) (of_decide_eq_false hnex)
    · have hwp : written p = p := written_eq (Or.inl hgz)
      have hkeep : ∀ q c, Dict.get? w.files q = some c → Dict.get? (w.created le r p u).files q = some c := by
        intro q c hq
        rw [files_created _ _ _ _ _ hwp, if_neg, hq]
        rintro rfl
        exact of_decide_eq_false hnex (Dict.mem_keys_of_get? hq)
      have hnew : Dict.get? (w.created le r p u).files (d, p.2) = some (.whole u) := by
        rw [files_created _ _ _ _ _ hwp, if_pos (by rw [← hpd])]
      have hset : ∀ D, Owned owner d w D → Owned owner d (w.created le r p u) (Dict.set D r.id (.table p.2)) := by
        intro D hD q hq f hf
        rcases Dict.mem_set hq with hq | hq
        · obtain ⟨h1, t, h2, h3⟩ := hD q hq f hf
          exact ⟨h1, t, hkeep _ _ h2, h3⟩
        · rw [hq] at hf ⊢
          dsimp only at hf ⊢
          injection hf with hf
          rw [← hf]
          exact ⟨hgz, u, hnew, hb u hbu⟩
      rw [hst]
      refine ⟨⟨hset _ hO.vars, hset _ hO.user, ?_⟩, ?_⟩
      · intro v hv
        obtain ⟨d', h1, h2⟩ := dumpFile_obj le (set_ne_nil w.conf.user r.id (TblEntry.table p.2))
        have e : (w.created le r p u).conf.disk =
          some (Conf.dumpFile le (Dict.set w.conf.user r.id (.table p.2))) := rfl
        rw [e, h1] at hv
        injection hv with hv
        injection hv with hv
        rw [← hv]
        intro q hq f hf
        exact hset _ hO.user q (h2.mem_iff.1 hq) f hf
      · intro t ht
        rcases hor with h | ⟨h, -⟩
        · rw [ht] at h
          rw [Except.ok.inj h]
          exact hb u hbu
        · rw [ht] at h
          cases h

/-- **C58** (histories; the part that holds). A user who always works with one folder `d`, starting without
registered tables and with a global registry without tables: after any history of runs and restarts, a run never
uses a table that was built for another identifier. (`owner t`: the identifier table `t` was built for.) What is
missing: a table of the global registry, or of another folder, whose file has the name of a table created in the
user folder (`shadowed_global_table`); and different grids with the same identifier (`table_id_pixel_size`,
`table_id_latitudes`). -/
theorem tables_not_shared_partial (owner : τ → Str) (d : Str) (hne : d ≠ []) (le : Str → Str → Bool)
    (global template : Dict Str TblEntry) (hg : ∀ q ∈ global, ∀ f, q.2 ≠ .table f)
    (ht : ∀ q ∈ template, ∀ f, q.2 ≠ .table f) (w0 : Store τ) (hc0 : w0.cache = [])
    (hv : ∀ q ∈ w0.conf.vars, ∀ f, q.2 ≠ .table f) (hu : ∀ q ∈ w0.conf.user, ∀ f, q.2 ≠ .table f)
    (hdk : ∀ u, w0.conf.disk = some (.obj u) → ∀ q ∈ u, ∀ f, q.2 ≠ .table f)
    (h : List (Act τ)) (hh : ∀ a ∈ h, OwnAct owner d a) (w : Store τ) (hw : w = after le global template w0 h)
    (r : TblRun) (build : Py τ) (out : Py τ × Store τ)
    (ho : out = w.scipy le r build ∨ ∃ c, out = w.grib le c r build)
    (hd : r.userDir = some d) (hb : ∀ t, build = .ok t → owner t = r.id) (t : τ) (hout : out.1 = .ok t) :
    owner t = r.id := by
  have hgn : NpyNames global := fun q hq f hf => absurd hf (hg q hq f)
  have htn : NpyNames template := fun q hq f hf => absurd hf (ht q hq f)
  have inv : ∀ (h : List (Act τ)) (v : Store τ), (∀ a ∈ h, OwnAct owner d a) → CacheOK v → OwnedAll owner d v →
      CacheOK (after le global template v h) ∧ OwnedAll owner d (after le global template v h) := by
    intro h
    induction h with
    | nil => intro v _ h1 h2; exact ⟨h1, h2⟩
    | cons a h ih =>
      intro v ha hcv hOv
      have hc' := (act_inv le global template hgn htn v a hcv hOv.names).1
      refine ih _ (fun b hb => ha b (List.mem_cons_of_mem _ hb)) hc' ?_
      have haa := ha a (by simp)
      cases a with
      | scipy r b => exact (owned_run hne (Or.inl rfl) haa.1 haa.2 hcv hOv).1
      | grib c r b => exact (owned_run hne (Or.inr ⟨c, rfl⟩) haa.1 haa.2 hcv hOv).1
      | restart =>
        unfold Store.act
        dsimp only
        unfold Store.restart
        have hnone : ∀ (v' : Store τ) (D : Dict Str TblEntry), (∀ q ∈ D, ∀ f, q.2 ≠ .table f) → Owned owner d v' D :=
          fun v' D hD q hq f hf => absurd hf (hD q hq f)
        cases hdv : v.conf.disk with
        | none =>
          refine ⟨?_, hnone _ _ ht, ?_⟩
          · apply hnone
            intro q hq
            rcases Dict.mem_update template global hq with h | h
            · exact hg q h
            · exact ht q h
          · intro u hu
            change some (Conf.dumpFile le template) = some (.obj u) at hu
            injection hu with hu
            unfold Conf.dumpFile at hu
            split at hu
            · cases hu
            · injection hu with hu
              rw [← hu]
              apply hnone
              intro q hq
              exact ht q ((List.mergeSort_perm _ _).mem_iff.1 hq)
        | some f =>
          cases f with
          | obj u =>
            have hu := hOv.disk u hdv
            refine ⟨?_, hu, ?_⟩
            · intro q hq f hf
              rcases Dict.mem_update u global hq with h | h
              · exact absurd hf (hg q h f)
              · exact hu q h f hf
            · intro u' hu'
              change some (JFile.obj u) = some (.obj u') at hu'
              injection hu' with hu'
              injection hu' with hu'
              rw [← hu']
              exact hu
          | text s => exact hOv
          | invalid => exact hOv
  obtain ⟨hc, hO⟩ := inv h w0 hh (by intro p t hp; rw [hc0] at hp; cases hp)
    ⟨fun q hq f hf => absurd hf (hv q hq f), fun q hq f hf => absurd hf (hu q hq f),
      fun u hu' q hq f hf => absurd hf (hdk u hu' q hq f)⟩
  rw [← hw] at hc hO
  exact (owned_run hne ho hd hb hc hO).2 t hout

end PyG2P
