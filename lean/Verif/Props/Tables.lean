import Verif.Model.Tables
import Verif.Lemmas.Text
import Verif.Lemmas.Py
import Verif.Props.Config
import Mathlib.Data.Set.Finite.Basic
import Mathlib.Data.Set.Finite.List

/-! # C55–C57, C59, C82 — interpolation tables on disk -/

namespace PyG2P
open Store
variable {τ : Type}

/-! ## C55 -/

theorem freeName_spec (taken : Nat → Bool) : ∀ (n i : Nat), taken (i + n) = false →
    ∃ k, freeName taken i = some k ∧ i ≤ k ∧ taken k = false ∧ ∀ j, i ≤ j → j < k → taken j = true := by
  intro n
  induction n with
  | zero =>
    intro i h
    refine ⟨i, ?_, Nat.le_refl _, h, fun j h1 h2 => by omega⟩
    rw [freeName.eq_1, if_neg (by rw [show taken i = false from h]; decide)]
  | succ n ih =>
    intro i h
    cases hi : taken i with
    | false =>
      refine ⟨i, ?_, Nat.le_refl _, hi, fun j h1 h2 => by omega⟩
      rw [freeName.eq_1, if_neg (by rw [hi]; decide)]
    | true =>
      obtain ⟨k, hk, hle, hf, hall⟩ := ih (i + 1) (by rw [show i + 1 + n = i + (n + 1) by omega]; exact h)
      refine ⟨k, ?_, by omega, hf, ?_⟩
      · rw [freeName.eq_1, if_pos hi, hk]
      · intro j h1 h2
        by_cases hj : j = i
        · rw [hj, hi]
        · exact hall j (by omega) h2

/-- The names of two numbers differ. -/
theorem tableName_inj (source : Str) (size : Nat) (suffix : Str) {i j : Nat}
    (h : tableName source size suffix i = tableName source size suffix j) : i = j := by
  unfold tableName at h
  generalize ('_' :: (source ++ '_' :: (Str.ofNat size ++ '_' :: (suffix ++ ".npy.gz".toList)))) = tail at h
  have h := List.append_cancel_right h
  have h := List.append_cancel_left h
  by_cases hi : i = 0
  · by_cases hj : j = 0
    · rw [hi, hj]
    · rw [if_pos hi, if_neg hj] at h
      cases h
  · by_cases hj : j = 0
    · rw [if_neg hi, if_pos hj] at h
      cases h
    · rw [if_neg hi, if_neg hj] at h
      exact Str.ofNat_inj (List.cons.inj h).2

/-- A folder holds finitely many files: some number is free. -/
theorem exists_free (w : Store τ) (r : TblRun) (d : Str) : ∃ k, w.ex (d, r.name k) = false := by
  by_contra hcon
  have hall : ∀ k, (d, r.name k) ∈ Dict.keys w.files := by
    intro k
    by_contra hk
    exact hcon ⟨k, by unfold Store.ex; exact decide_eq_false hk⟩
  have hinj : Function.Injective fun k => (d, r.name k) := by
    intro i j h
    exact tableName_inj _ _ _ (Prod.mk.inj h).2
  have hfin : (Set.range fun k => (d, r.name k)).Finite :=
    (List.finite_toSet (Dict.keys w.files)).subset (by rintro _ ⟨k, rfl⟩; exact hall k)
  exact Set.infinite_range_of_injective hinj hfin

/-- **C55.** For a table that is not registered yet, with creation on and a writable folder, the search for a
name ends; the name chosen is that of the first number whose file does not exist in the user folder (number 0
is written as nothing). -/
theorem new_table_name (w : Store τ) (r : TblRun) (d : Str) (hid : r.id ∉ Dict.keys w.conf.vars)
    (hc : r.create = true) (hw : r.write = .ok ()) (hd : r.userDir = some d) :
    ∃ k : Nat, w.tablePath r = .ok (d, "tbl".toList ++ (if k = 0 then [] else '_' :: Str.ofNat k) ++
        "_".toList ++ r.source ++ "_".toList ++ Str.ofNat r.targetSize ++ "_".toList ++ r.suffix ++
        ".npy.gz".toList) ∧
      (d, r.name k) ∉ Dict.keys w.files ∧ ∀ j < k, (d, r.name j) ∈ Dict.keys w.files := by
  obtain ⟨n, hn⟩ := exists_free w r d
  obtain ⟨k, hk, -, hf, hall⟩ := freeName_spec (fun i => w.ex (d, r.name i)) n 0 (by rw [Nat.zero_add]; exact hn)
  refine ⟨k, ?_, of_decide_eq_false hf, fun j hj => of_decide_eq_true (hall j (Nat.zero_le _) hj)⟩
  unfold Store.tablePath
  rw [Dict.get?_eq_none_iff.2 hid]
  dsimp only
  unfold Store.newPath
  rw [if_neg (by rw [hc]; decide), hw, hd]
  unfold inDir
  dsimp only [bind, Except.bind]
  rw [hk]
  dsimp only
  congr 2
  unfold TblRun.name tableName
  simp only [List.append_assoc]
  rfl

/-! ## What a path chosen by the program looks like -/

theorem isGz_append (s : Str) : isGz (s ++ ".gz".toList) = true := by
  unfold isGz
  rw [List.isSuffixOf_iff_suffix]
  exact List.suffix_append _ _

theorem isGz_name (r : TblRun) (k : Nat) : isGz (r.name k) = true := by
  have e : ".npy.gz".toList = ".npy".toList ++ ".gz".toList := by decide
  have : r.name k = ("tbl".toList ++ (if k = 0 then [] else '_' :: Str.ofNat k) ++
      ('_' :: (r.source ++ '_' :: (Str.ofNat r.targetSize ++ '_' :: (r.suffix ++ ".npy".toList))))) ++
      ".gz".toList := by
    unfold TblRun.name tableName
    rw [e]
    generalize ".gz".toList = g
    generalize ".npy".toList = y
    generalize "tbl".toList = t
    simp only [List.append_assoc, List.cons_append]
  rw [this]
  exact isGz_append _


/-- Where a path comes from: an existing file under the registered name, or a file to be created. -/
theorem tablePath_spec {w : Store τ} {r : TblRun} {p : Path} (h : w.tablePath r = .ok p) :
    (w.exAny p = true ∧ Dict.get? w.conf.vars r.id = some (.table p.2)) ∨
    (isGz p.2 = true ∧ r.create = true ∧ r.write = .ok () ∧ r.userDir = some p.1 ∧
      ((r.id ∉ Dict.keys w.conf.vars ∧ w.ex p = false ∧ ∃ k, p.2 = r.name k) ∨
        ∃ f, Dict.get? w.conf.vars r.id = some (.table f) ∧
          p.2 = (if isGz f then f else f ++ ".gz".toList) ∧ (p.1 ≠ [] → w.exAny (p.1, f) = false))) := by
  unfold Store.tablePath at h
  cases hv : Dict.get? w.conf.vars r.id with
  | none =>
    rw [hv] at h
    dsimp only at h
    unfold Store.newPath at h
    split at h
    · cases h
    · next hc =>
      have hc : r.create = true := by simpa using hc
      cases hw : r.write with
      | error e => rw [hw] at h; cases h
      | ok u =>
        rw [hw] at h
        cases hd : r.userDir with
        | none => rw [hd] at h; cases h
        | some d =>
          rw [hd] at h
          unfold inDir at h
          dsimp only [bind, Except.bind] at h
          cases hn : freeName (fun i => w.ex (d, r.name i)) 0 with
          | none => rw [hn] at h; cases h
          | some k =>
            rw [hn] at h
            dsimp only at h
            have h := Except.ok.inj h
            subst h
            refine Or.inr ⟨isGz_name r k, hc, rfl, rfl, Or.inl ⟨Dict.get?_eq_none_iff.1 hv, ?_, k, rfl⟩⟩
            obtain ⟨n, hfree⟩ := exists_free w r d
            obtain ⟨k', hk', -, hf, -⟩ := freeName_spec (fun i => w.ex (d, r.name i)) n 0
              (by rw [Nat.zero_add]; exact hfree)
            rw [hn] at hk'
            rw [Option.some.inj hk']
            exact hf
  | some e =>
    rw [hv] at h
    cases e with
    | text s => cases h
    | table f =>
      dsimp only at h
      have hrec : ∀ q : Path, (∀ d, r.userDir = some d → d ≠ [] → w.exAny (d, f) = false) →
          Store.recreatePath r f = .ok q →
          (isGz q.2 = true ∧ r.create = true ∧ r.write = .ok () ∧ r.userDir = some q.1 ∧
            q.2 = (if isGz f then f else f ++ ".gz".toList) ∧ (q.1 ≠ [] → w.exAny (q.1, f) = false)) := by
        intro q hno hq
        unfold Store.recreatePath at hq
        split at hq
        · cases hq
        · next hc =>
          have hc : r.create = true := by simpa using hc
          cases hw : r.write with
          | error e => rw [hw] at hq; cases hq
          | ok u =>
            rw [hw] at hq
            cases hd : r.userDir with
            | none => rw [hd] at hq; cases hq
            | some d =>
              rw [hd] at hq
              have hq := Except.ok.inj hq
              subst hq
              refine ⟨?_, hc, rfl, rfl, rfl, hno d hd⟩
              dsimp only
              split
              · assumption
              · exact isGz_append _
      have hglob : (∀ d, r.userDir = some d → d ≠ [] → w.exAny (d, f) = false) → w.globalPath r f = .ok p →
          (w.exAny p = true ∧ p.2 = f) ∨ Store.recreatePath r f = .ok p := by
        intro hno hg
        unfold Store.globalPath at hg
        cases hd : r.globalDir with
        | none => rw [hd] at hg; cases hg
        | some g =>
          rw [hd] at hg
          unfold inDir at hg
          dsimp only [bind, Except.bind] at hg
          split at hg
          · next he =>
            have hg := Except.ok.inj hg
            subst hg
            exact Or.inl ⟨he, rfl⟩
          · exact Or.inr hg
      unfold Store.registeredPath at h
      have fin : (∀ d, r.userDir = some d → d ≠ [] → w.exAny (d, f) = false) → w.globalPath r f = .ok p →
          (w.exAny p = true ∧ some (TblEntry.table f) = some (.table p.2)) ∨
          (isGz p.2 = true ∧ r.create = true ∧ r.write = .ok () ∧ r.userDir = some p.1 ∧
            ((r.id ∉ Dict.keys w.conf.vars ∧ w.ex p = false ∧ ∃ k, p.2 = r.name k) ∨
            ∃ f', some (TblEntry.table f) = some (.table f') ∧
              p.2 = (if isGz f' then f' else f' ++ ".gz".toList) ∧ (p.1 ≠ [] → w.exAny (p.1, f') = false))) := by
        intro hno hg
        rcases hglob hno hg with ⟨h1, h2⟩ | h1
        · exact Or.inl ⟨h1, by rw [h2]⟩
        · obtain ⟨a, b, c, d, e, g⟩ := hrec p hno h1
          exact Or.inr ⟨a, b, c, d, Or.inr ⟨f, rfl, e, g⟩⟩
      cases hd : r.userDir with
      | none =>
        rw [hd] at h
        rw [hd] at fin
        exact fin (fun d h => by cases h) h
      | some d =>
        rw [hd] at h
        rw [hd] at fin
        dsimp only at h
        split at h
        · next he =>
          have h := Except.ok.inj h
          subst h
          exact Or.inl ⟨he.2, rfl⟩
        · next he =>
          refine fin (fun d' hd' hne => ?_) h
          rw [Option.some.inj hd'] at he
          cases hx : w.exAny (d', f) with
          | false => rfl
          | true => exact absurd ⟨hne, hx⟩ he

/-- The file that saving at a path writes. -/
def Store.written (p : Path) : Path := (p.1, if isGz p.2 then p.2 else npyName p.2)

/-- Registered names as the program and the global registry write them. -/
def NpyNames (d : Dict Str TblEntry) : Prop :=
  ∀ q ∈ d, ∀ f, q.2 = .table f → isGz f = true ∨ ".npy".toList.isSuffixOf f = true

theorem NpyNames.get {d : Dict Str TblEntry} (h : NpyNames d) {id f : Str}
    (hg : Dict.get? d id = some (.table f)) : isGz f = true ∨ ".npy".toList.isSuffixOf f = true :=
  h _ (Dict.mem_of_get? hg) f rfl

theorem written_eq {p : Path} (h : isGz p.2 = true ∨ ".npy".toList.isSuffixOf p.2 = true) : written p = p := by
  unfold Store.written npyName
  rcases h with h | h
  · rw [if_pos h]
  · rw [if_pos h]
    split <;> rfl

/-- What reading does. -/
theorem read_spec (w : Store τ) (p : Path) :
    (∃ t, Dict.get? w.cache p = some t ∧ w.read p = (.ok t, w)) ∨
    (Dict.get? w.cache p = none ∧ ∃ t, w.loadAny p = .ok t ∧
      w.read p = (.ok t, { w with cache := Dict.set w.cache p t })) ∨
    (Dict.get? w.cache p = none ∧ ∃ e, w.loadAny p = .error e ∧ w.read p = (.error e, w)) := by
  unfold Store.read
  cases hc : Dict.get? w.cache p with
  | some t => exact Or.inl ⟨t, rfl, rfl⟩
  | none =>
    cases hl : w.loadAny p with
    | ok t => exact Or.inr (Or.inl ⟨rfl, t, rfl, rfl⟩)
    | error e => exact Or.inr (Or.inr ⟨rfl, e, rfl, rfl⟩)

theorem read_created (le : Str → Str → Bool) (w : Store τ) (r : TblRun) (p : Path) (t : τ) :
    (w.created le r p t).read p = (.ok t, w.created le r p t) := by
  have : Dict.get? (w.created le r p t).cache p = some t := by
    unfold Store.created Store.register
    dsimp only
    rw [Dict.get?_set, if_pos rfl]
  unfold Store.read
  rw [this]

/-- What a run does: it fails and changes nothing, reads the table at its path, or creates a table where there
was no file. -/
theorem run_spec (le : Str → Str → Bool) (w : Store τ) (r : TblRun) (build : Py τ) (out : Py τ × Store τ)
    (h : out = w.scipy le r build ∨ ∃ c, out = w.grib le c r build) :
    (∃ e, out = (.error e, w)) ∨
    ∃ p, w.tablePath r = .ok p ∧ (
      (w.exAny p = true ∧ out = w.read p) ∨
      ∃ t, build = .ok t ∧ w.ex p = false ∧ r.create = true ∧ out.2 = w.created le r p t ∧
        (out.1 = .ok t ∨ out.1 = .error (.app 6000) ∧ written p ≠ p) ∧
        (w.exAny p = false ∨ ∃ c, out = w.grib le c r build)) := by
  rcases h with h | ⟨c, h⟩
  · subst h
    unfold Store.scipy
    cases hp : w.tablePath r with
    | error e => exact Or.inl ⟨e, rfl⟩
    | ok p =>
      dsimp only
      unfold Store.scipyAt
      split
      · next he => exact Or.inr ⟨p, rfl, Or.inl ⟨he, rfl⟩⟩
      · next he =>
        split
        · next hc =>
          cases hw : r.write with
          | error e => exact Or.inl ⟨e, rfl⟩
          | ok u =>
            cases hb : build with
            | error e => exact Or.inl ⟨e, rfl⟩
            | ok t =>
              have he : w.exAny p = false := by simpa using he
              refine Or.inr ⟨p, rfl, Or.inr ⟨t, rfl, ?_, hc, rfl, Or.inl rfl, Or.inl he⟩⟩
              unfold Store.exAny at he
              exact (Bool.or_eq_false_iff.1 he).1
        · exact Or.inl ⟨_, rfl⟩
  · subst h
    unfold Store.grib
    cases hp : w.tablePath r with
    | error e => exact Or.inl ⟨e, rfl⟩
    | ok p =>
      dsimp only
      unfold Store.gribAt
      split
      · next he =>
        refine Or.inr ⟨p, rfl, Or.inl ⟨?_, rfl⟩⟩
        unfold Store.exAny
        rw [he]
        rfl
      · next he =>
        have he : w.ex p = false := by simpa using he
        split
        · next hc =>
          cases hw : Store.writeCheck c r with
          | error e => exact Or.inl ⟨e, rfl⟩
          | ok u =>
            cases hb : build with
            | error e => exact Or.inl ⟨e, rfl⟩
            | ok t =>
              dsimp only
              have key : ∀ q : Path, (w.created le r p t).ex q = decide (q = written p ∨ q ∈ Dict.keys w.files) := by
                intro q
                unfold Store.ex Store.created Store.register Store.save Store.written
                dsimp only
                rw [decide_eq_decide, Dict.mem_keys_set]
              split
              · next hx =>
                refine Or.inr ⟨p, rfl, Or.inr ⟨t, rfl, he, hc, ?_, ?_, Or.inr ⟨c, ?_⟩⟩⟩
                · rw [read_created]
                · rw [read_created]; exact Or.inl rfl
                · rw [hw]
              · next hx =>
                refine Or.inr ⟨p, rfl, Or.inr ⟨t, rfl, he, hc, rfl, Or.inr ⟨rfl, ?_⟩, Or.inr ⟨c, ?_⟩⟩⟩
                · intro e
                  rw [key, e] at hx
                  exact hx (decide_eq_true (Or.inl rfl))
                · rw [hw]
        · exact Or.inl ⟨_, rfl⟩


/-- **C55 (files).** No run ever changes an existing file of tables, whatever its outcome. (For the GRIB methods,
the registered name must end with `.npy` or `.gz`, as all names written by the program do.) -/
theorem tables_never_overwritten (le : Str → Str → Bool) (w : Store τ) (r : TblRun) (build : Py τ)
    (out : Py τ × Store τ)
    (h : out = w.scipy le r build ∨ ((∃ c, out = w.grib le c r build) ∧ NpyNames w.conf.vars))
    (q : Path) (c : TFile τ) (hq : Dict.get? w.files q = some c) : Dict.get? out.2.files q = some c := by
  have key : ∀ (p : Path) (t : τ), w.ex p = false → written p = p →
      Dict.get? (w.created le r p t).files q = some c := by
    intro p t hp hwp
    have : (w.created le r p t).files = Dict.set w.files (written p) (.whole t) := rfl
    rw [this, hwp, Dict.get?_set, if_neg, hq]
    rintro rfl
    have := Dict.mem_keys_of_get? hq
    exact of_decide_eq_false hp this
  have hread : ∀ p, Dict.get? (w.read p).2.files q = some c := by
    intro p
    rcases read_spec w p with ⟨t, -, e⟩ | ⟨-, t, -, e⟩ | ⟨-, e', -, e⟩ <;> rw [e] <;> exact hq
  rcases run_spec le w r build out (h.imp id (·.1)) with ⟨e, rfl⟩ | ⟨p, hp, ⟨-, rfl⟩ | ⟨t, -, hne, -, ho, -, hor⟩⟩
  · exact hq
  · exact hread p
  · rcases tablePath_spec hp with ⟨hx, hv⟩ | ⟨hgz, -⟩
    · rcases h with h | ⟨-, hn⟩
      · -- the scipy methods create nothing beside an existing file
        subst h
        unfold Store.scipy
        rw [hp]
        dsimp only
        unfold Store.scipyAt
        rw [if_pos hx]
        exact hread p
      · rw [ho]
        exact key p t hne (written_eq (hn.get hv))
    · rw [ho]
      exact key p t hne (written_eq (Or.inl hgz))

/-! ## C59 -/

/-- The loaded tables are those on disk. -/
def CacheOK (w : Store τ) : Prop := ∀ p t, Dict.get? w.cache p = some t → w.loadAny p = .ok t

/-- All registered names are names of table files, in memory and on disk. -/
structure NamesOK (w : Store τ) : Prop where
  vars : NpyNames w.conf.vars
  user : NpyNames w.conf.user
  disk : ∀ u, w.conf.disk = some (.obj u) → NpyNames u

theorem load_of_get {w : Store τ} {p : Path} {t : τ} (h : Dict.get? w.files p = some (.whole t)) :
    w.loadAny p = .ok t := by
  have hl : w.load p = .ok t := by unfold Store.load; rw [h]
  have he : w.ex p = true := decide_eq_true (Dict.mem_keys_of_get? h)
  unfold Store.loadAny
  split
  · exact hl
  · exact hl

theorem load_ok {w : Store τ} {p : Path} {t : τ} (h : w.load p = .ok t) :
    Dict.get? w.files p = some (.whole t) := by
  unfold Store.load at h
  split at h
  · cases h
  · next e => rw [e, Except.ok.inj h]
  · cases h

theorem files_created (le : Str → Str → Bool) (w : Store τ) (r : TblRun) (p : Path) (t : τ) (h : written p = p)
    (q : Path) : Dict.get? (w.created le r p t).files q = if p = q then some (.whole t) else Dict.get? w.files q := by
  have : (w.created le r p t).files = Dict.set w.files (written p) (.whole t) := rfl
  rw [this, h, Dict.get?_set]

theorem cacheOK_created {le : Str → Str → Bool} {w : Store τ} {r : TblRun} {p : Path} {t : τ} (h : CacheOK w)
    (hp : w.ex p = false) (hw : written p = p) : CacheOK (w.created le r p t) := by
  intro q u hq
  have hc : (w.created le r p t).cache = Dict.set w.cache p t := rfl
  rw [hc, Dict.get?_set] at hq
  by_cases hpq : p = q
  · rw [if_pos hpq] at hq
    apply load_of_get
    rw [files_created _ _ _ _ _ hw, if_pos hpq, Option.some.inj hq]
  · rw [if_neg hpq] at hq
    have hl := h q u hq
    have hpn : p ∉ Dict.keys w.files := of_decide_eq_false hp
    have hex : ∀ x, x ≠ p → (w.created le r p t).ex x = w.ex x := by
      intro x hx
      have : (w.created le r p t).files = Dict.set w.files (written p) (.whole t) := rfl
      unfold Store.ex
      rw [this, hw, decide_eq_decide, Dict.mem_keys_set]
      exact ⟨fun h => h.resolve_left hx, Or.inr⟩
    have hload : ∀ x, w.load x = .ok u → (w.created le r p t).load x = .ok u := by
      intro x hx
      have hx := load_ok hx
      have hxp : p ≠ x := by
        rintro rfl
        exact hpn (Dict.mem_keys_of_get? hx)
      unfold Store.load
      rw [files_created _ _ _ _ _ hw, if_neg hxp, hx]
    unfold Store.loadAny at hl ⊢
    split
    · next hg => rw [if_pos hg] at hl; exact hload _ hl
    · next hg =>
      rw [if_neg hg] at hl
      rw [hex q (fun e => hpq e.symm)]
      split
      · next hx => rw [if_pos hx] at hl; exact hload _ hl
      · next hx =>
        rw [if_neg hx] at hl
        split at hl
        · next hz =>
          have hz' : gz q ≠ p := by
            intro e
            rw [e, hp] at hz
            cases hz
          rw [hex _ hz', if_pos hz]
          exact hload _ hl
        · cases hl

theorem cacheOK_read {w : Store τ} (h : CacheOK w) (p : Path) : CacheOK (w.read p).2 := by
  rcases read_spec w p with ⟨t, -, e⟩ | ⟨-, t, ht, e⟩ | ⟨-, e', -, e⟩
  · rw [e]; exact h
  · rw [e]
    intro q u hq
    dsimp only at hq
    rw [Dict.get?_set] at hq
    by_cases hpq : p = q
    · rw [if_pos hpq] at hq
      rw [← hpq, ← Option.some.inj hq]
      exact ht
    · rw [if_neg hpq] at hq
      exact h q u hq
  · rw [e]; exact h

theorem namesOK_created {le : Str → Str → Bool} {w : Store τ} {r : TblRun} {p : Path} {t : τ} (h : NamesOK w)
    (hp : isGz p.2 = true ∨ ".npy".toList.isSuffixOf p.2 = true) : NamesOK (w.created le r p t) := by
  have hset : ∀ d : Dict Str TblEntry, NpyNames d → NpyNames (Dict.set d r.id (.table p.2)) := by
    intro d hd q hq f hf
    rcases Dict.mem_set hq with hq | hq
    · exact hd q hq f hf
    · rw [hq] at hf
      dsimp only at hf
      injection hf with hf
      rw [← hf]
      exact hp
  refine ⟨hset _ h.vars, hset _ h.user, ?_⟩
  intro u hu
  have e : (w.created le r p t).conf.disk = some (Conf.dumpFile le (Dict.set w.conf.user r.id (.table p.2))) := rfl
  rw [e] at hu
  have hne : Dict.set w.conf.user r.id (.table p.2) ≠ [] := by
    intro h0
    have : r.id ∈ Dict.keys (Dict.set w.conf.user r.id (TblEntry.table p.2)) := Dict.mem_keys_set.2 (Or.inl rfl)
    rw [h0] at this
    cases this
  obtain ⟨d', h1, h2⟩ := dumpFile_obj le hne
  rw [h1] at hu
  injection hu with hu
  injection hu with hu
  rw [← hu]
  intro q hq f hf
  exact hset _ h.user q (h2.mem_iff.1 hq) f hf

/-- The name of a table about to be created. -/
theorem created_name {w : Store τ} {r : TblRun} {p : Path} (hn : NamesOK w) (hp : w.tablePath r = .ok p) :
    isGz p.2 = true ∨ ".npy".toList.isSuffixOf p.2 = true := by
  rcases tablePath_spec hp with ⟨-, hv⟩ | ⟨hgz, -⟩
  · exact hn.vars.get hv
  · exact Or.inl hgz

/-- Both invariants hold in every state the program can reach. -/
theorem act_inv (le : Str → Str → Bool) (global template : Dict Str TblEntry) (hg : NpyNames global)
    (ht : NpyNames template) (w : Store τ) (a : Act τ) (hc : CacheOK w) (hn : NamesOK w) :
    CacheOK (act le global template w a) ∧ NamesOK (act le global template w a) := by
  have run : ∀ r build out, (out = w.scipy le r build ∨ ∃ c, out = w.grib le c r build) →
      CacheOK out.2 ∧ NamesOK out.2 := by
    intro r build out ho
    rcases run_spec le w r build out ho with ⟨e, rfl⟩ | ⟨p, hp, ⟨-, rfl⟩ | ⟨t, -, hne, -, ho, -, -⟩⟩
    · exact ⟨hc, hn⟩
    · refine ⟨cacheOK_read hc p, ?_⟩
      rcases read_spec w p with ⟨t, -, e⟩ | ⟨-, t, -, e⟩ | ⟨-, e', -, e⟩ <;> rw [e]
      · exact hn
      · exact ⟨hn.vars, hn.user, hn.disk⟩
      · exact hn
    · have hnm := created_name hn hp
      rw [ho]
      exact ⟨cacheOK_created hc hne (written_eq hnm), namesOK_created hn hnm⟩
  cases a with
  | scipy r b => exact run r b _ (Or.inl rfl)
  | grib c r b => exact run r b _ (Or.inr ⟨c, rfl⟩)
  | restart =>
    unfold Store.act
    dsimp only
    unfold Store.restart
    have hupd : ∀ u, NpyNames u → NpyNames (Dict.update global u) := by
      intro u hu q hq f hf
      rcases Dict.mem_update u global hq with h | h
      · exact hg q h f hf
      · exact hu q h f hf
    cases hd : w.conf.disk with
    | none =>
      refine ⟨(fun p t h => by cases h), hupd _ ht, ht, ?_⟩
      intro u hu
      change some (Conf.dumpFile le template) = some (.obj u) at hu
      injection hu with hu
      unfold Conf.dumpFile at hu
      split at hu
      · cases hu
      · injection hu with hu
        rw [← hu]
        intro q hq f hf
        exact ht q ((List.mergeSort_perm _ _).mem_iff.1 hq) f hf
    | some f =>
      cases f with
      | obj u =>
        refine ⟨(fun p t h => by cases h), hupd _ (hn.disk u hd), hn.disk u hd, ?_⟩
        intro u' hu'
        change some (JFile.obj u) = some (.obj u') at hu'
        injection hu' with hu'
        injection hu' with hu'
        rw [← hu']
        exact hn.disk u hd
      | text s => exact ⟨hc, hn⟩
      | invalid => exact ⟨hc, hn⟩

theorem after_inv (le : Str → Str → Bool) (global template : Dict Str TblEntry) (hg : NpyNames global)
    (ht : NpyNames template) : ∀ (h : List (Act τ)) (w : Store τ), CacheOK w → NamesOK w →
      CacheOK (after le global template w h) ∧ NamesOK (after le global template w h) := by
  intro h
  induction h with
  | nil => intro w hc hn; exact ⟨hc, hn⟩
  | cons a h ih =>
    intro w hc hn
    obtain ⟨hc', hn'⟩ := act_inv le global template hg ht w a hc hn
    exact ih _ hc' hn'

/-- **C59** (the part that holds). After any history of runs and restarts of the program, reading a table gives
the content of its file: of the file itself if it exists, of its compressed version if only that exists.
What is missing: a file changed by something else than the program, while it is loaded (`cache_stale`). -/
theorem cache_transparent_partial (le : Str → Str → Bool) (global template : Dict Str TblEntry)
    (hg : NpyNames global) (ht : NpyNames template) (w0 : Store τ) (h0 : w0.cache = []) (hn : NamesOK w0)
    (h : List (Act τ)) (w : Store τ) (hw : w = after le global template w0 h) (p : Path) (t : τ) :
    (Dict.get? w.files p = some (.whole t) → (w.read p).1 = .ok t) ∧
    (isGz p.2 = false → p ∉ Dict.keys w.files →
      Dict.get? w.files (p.1, p.2 ++ ".gz".toList) = some (.whole t) → (w.read p).1 = .ok t) ∧
    (p ∉ Dict.keys w.files → (p.1, p.2 ++ ".gz".toList) ∉ Dict.keys w.files → (w.read p).1 ≠ .ok t) := by
  have hc : CacheOK w := by
    rw [hw]
    refine (after_inv le global template hg ht h w0 ?_ hn).1
    intro p t hp
    rw [h0] at hp
    cases hp
  have key : (w.read p).1 = w.loadAny p := by
    rcases read_spec w p with ⟨t, h1, e⟩ | ⟨-, t, h1, e⟩ | ⟨-, e', h1, e⟩
    · rw [e, hc p t h1]
    · rw [e, h1]
    · rw [e, h1]
  rw [key]
  refine ⟨load_of_get, ?_, ?_⟩
  · intro hz hx hgz
    have hx : w.ex p = false := decide_eq_false hx
    have hy : w.ex (gz p) = true := decide_eq_true (Dict.mem_keys_of_get? hgz)
    unfold Store.loadAny
    rw [if_neg (by rw [hz]; decide), if_neg (by rw [hx]; decide), if_pos hy]
    unfold Store.load
    unfold Store.gz
    rw [hgz]
  · intro hx hy
    have hx' : w.ex p = false := decide_eq_false hx
    have hy' : w.ex (gz p) = false := decide_eq_false hy
    unfold Store.loadAny
    split
    · intro hl
      exact hx (Dict.mem_keys_of_get? (load_ok hl))
    · rw [if_neg (by rw [hx']; decide), if_neg (by rw [hy']; decide)]
      intro hl
      cases hl

end PyG2P
