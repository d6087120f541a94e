import Verif.Props.TableIds

/-! # C82 — interrupted runs; C58 — the remaining witnesses -/

namespace PyG2P
open Store
variable {τ : Type}

/-! ## C58 -/

/-- Non-vacuity of `tables_not_shared_partial`: on an empty store runs for two grids create tables 1 and 2 (`owner`:
the identifier each was built for) with the same source name, size and method; then the first grid gets table 1. -/
example (le : Str → Str → Bool) : ∃ (owner : Nat → Str) (w : Store Nat),
    w = after le [] [] Demo.emptyStore
      [.scipy (Demo.tblRun "a" "t" true) (.ok 1), .scipy (Demo.tblRun "b" "t" true) (.ok 2)] ∧
    (∀ t, (w.scipy le (Demo.tblRun "a" "t" true) (.ok 1)).1 = .ok t →
      owner t = (Demo.tblRun "a" "t" true).id) ∧
    owner 2 ≠ (Demo.tblRun "a" "t" true).id := by
  refine ⟨fun n => if n = 1 then (Demo.tblRun "a" "t" true).id else (Demo.tblRun "b" "t" true).id, _, rfl, ?_, by decide +kernel⟩
  intro t ht
  refine tables_not_shared_partial (fun n => if n = 1 then (Demo.tblRun "a" "t" true).id else (Demo.tblRun "b" "t" true).id) "/u".toList (by decide) le [] [] (fun q hq => by cases hq) (fun q hq => by cases hq)
    Demo.emptyStore rfl (fun q hq => by cases hq) (fun q hq => by cases hq) (fun u hu => by cases hu) _ ?_ _ rfl
    (Demo.tblRun "a" "t" true) (.ok 1) _ (Or.inl rfl) rfl ?_ t ht
  · intro a ha
    simp only [List.mem_cons, List.not_mem_nil, or_false] at ha
    rcases ha with rfl | rfl
    · refine ⟨rfl, fun t ht => ?_⟩
      rw [← Except.ok.inj ht]
      rfl
    · refine ⟨rfl, fun t ht => ?_⟩
      rw [← Except.ok.inj ht]
      rfl
  · intro t ht
    rw [← Except.ok.inj ht]
    rfl

/-- C58 is false of the program: the global registry holds table 1 for grid `a`, in the global folder. A run for
grid `b` of the same source name, size and method creates table 2 in the user folder, under the same file name;
from then on runs for grid `a` use table 2. -/
theorem shadowed_global_table (le : Str → Str → Bool) : ∃ (w w' : Store Nat) (a b : TblRun), a.gridId ≠ b.gridId ∧
    w.cache = [] ∧ (w.scipy le a (.ok 9)).1 = .ok 1 ∧
    w' = (w.scipy le b (.ok 2)).2 ∧ (w'.scipy le a (.ok 9)).1 = .ok 2 := by
  obtain ⟨f, hf⟩ : ∃ f, f = tableName "rain".toList 4 "scipy_nearest".toList 0 := ⟨_, rfl⟩
  obtain ⟨a, ha⟩ : ∃ a, a = Demo.tblRun "a" "t" true := ⟨_, rfl⟩
  obtain ⟨b, hb⟩ : ∃ b, b = Demo.tblRun "b" "t" true := ⟨_, rfl⟩
  obtain ⟨w, hw⟩ : ∃ w : Store Nat, w = ⟨⟨[(a.id, .table f)], [], none⟩, [(("/g".toList, f), .whole 1)], []⟩ := ⟨_, rfl⟩
  have hgz : isGz f = true := by rw [hf]; decide +kernel
  have hfz : f ≠ f ++ ".gz".toList := by
    intro h
    have := congrArg List.length h
    simp at this
  have hpb : w.scipy le b (.ok 2) = (.ok 2, w.created le b ("/u".toList, f) 2) := by
    obtain ⟨k, h1, h2, h3⟩ := new_table_name w b "/u".toList (by rw [hw]; change b.id ∉ [a.id]; rw [ha, hb]; decide +kernel) (by rw [hb]; rfl)
      (by rw [hb]; rfl) (by rw [hb]; rfl)
    have hk : k = 0 := by
      rcases Nat.eq_zero_or_pos k with h | h
      · exact h
      · have := h3 0 h
        rw [hw] at this
        exact absurd this (by unfold Dict.keys; simp)
    subst hk
    have hp : w.tablePath b = .ok ("/u".toList, f) := by
      rw [h1, hf, hb]
      decide +kernel
    have hx : w.exAny ("/u".toList, f) = false := by
      unfold Store.exAny Store.ex Store.gz
      rw [decide_eq_false (by rw [hw]; unfold Dict.keys; simp),
        decide_eq_false (by rw [hw]; unfold Dict.keys; simp)]
      rfl
    unfold Store.scipy
    rw [hp]
    dsimp only
    unfold Store.scipyAt
    rw [if_neg (by rw [hx]; decide), hb]
    rfl
  refine ⟨w, _, a, b, (by rw [ha, hb]; decide), (by rw [hw]), ?_, rfl, ?_⟩
  · refine ((table_lookup_partial le w a f "/u".toList "/g".toList (.ok 9) ?_ (by rw [ha]; rfl) (by decide)
      (by rw [ha]; rfl) (by rw [hw]) ?_).1 ("/g".toList, f) 1 ?_ ?_).1
    · rw [hw]
      change Dict.get? [(a.id, TblEntry.table f)] a.id = _
      unfold Dict.get?
      rw [if_pos rfl]
    · rw [hw]
      intro q hq s
      rw [List.mem_singleton.1 hq, hf]
      intro h
      have := congrArg (fun l : Str => l.reverse.take 4) h
      simp only [List.reverse_append, List.append_assoc] at this
      exact absurd this (by
        rw [show (tableName "rain".toList 4 "scipy_nearest".toList 0).reverse.take 4 = "zg.y".toList by decide +kernel,
          show (".gz".toList : Str).reverse = ['z', 'g', '.'] from rfl]
        simp)
    · rw [hw]
      unfold Dict.keys
      rw [hf, ha]
      decide +kernel
    · rw [hw]
      change Dict.get? [(("/g".toList, f), TFile.whole 1)] ("/g".toList, f) = _
      unfold Dict.get?
      rw [if_pos rfl]
  · rw [hpb]
    dsimp only
    have hne : a.id ≠ b.id := by rw [ha, hb]; decide +kernel
    have hreg : Dict.get? (w.created le b ("/u".toList, f) 2).conf.vars a.id = some (.table f) := by
      change Dict.get? (Dict.set w.conf.vars b.id (.table f)) a.id = _
      rw [Dict.get?_set, if_neg (Ne.symm hne), hw]
      change Dict.get? [(a.id, TblEntry.table f)] a.id = _
      unfold Dict.get?
      rw [if_pos rfl]
    have hfile : Dict.get? (w.created le b ("/u".toList, f) 2).files ("/u".toList, f) = some (.whole 2) := by
      rw [files_created _ _ _ _ _ (written_eq (Or.inl hgz)), if_pos rfl]
    have hcache : Dict.get? (w.created le b ("/u".toList, f) 2).cache ("/u".toList, f) = some 2 := by
      change Dict.get? (Dict.set w.cache ("/u".toList, f) 2) ("/u".toList, f) = _
      rw [Dict.get?_set, if_pos rfl]
    have hx : (w.created le b ("/u".toList, f) 2).exAny ("/u".toList, f) = true := by
      unfold Store.exAny
      rw [show (w.created le b ("/u".toList, f) 2).ex ("/u".toList, f) = true from
        decide_eq_true (Dict.mem_keys_of_get? hfile)]
      rfl
    generalize w.created le b ("/u".toList, f) 2 = v at *
    have hp : v.tablePath a = .ok ("/u".toList, f) := by
      unfold Store.tablePath
      rw [hreg]
      dsimp only
      unfold Store.registeredPath
      rw [ha]
      dsimp only [Demo.tblRun]
      rw [if_pos ⟨by decide, hx⟩]
    unfold Store.scipy
    rw [hp]
    dsimp only
    unfold Store.scipyAt
    rw [if_pos hx]
    unfold Store.read
    rw [hcache]

/-! ## C82 -/

theorem name_not_gzgz (r : TblRun) (k : Nat) (s : Str) : r.name k ≠ s ++ ".gz".toList ++ ".gz".toList := by
  intro h
  have e : ".npy.gz".toList = ".npy".toList ++ ".gz".toList := by decide
  unfold TblRun.name tableName at h
  rw [e] at h
  have assoc : ∀ (a b c d x y : Str) (u : Char), a ++ b ++ (u :: (c ++ u :: (d ++ u :: (x ++ (y ++ ".gz".toList))))) =
      (a ++ b ++ (u :: (c ++ u :: (d ++ u :: x)))) ++ y ++ ".gz".toList := by
    intros
    simp only [List.append_assoc, List.cons_append]
  rw [assoc] at h
  have h := (List.append_inj' h rfl).1
  have h' := congrArg (fun l : Str => l.reverse.head?) h
  simp only [List.reverse_append] at h'
  rw [show (".npy".toList : Str).reverse = ['y', 'p', 'n', '.'] from rfl,
    show (".gz".toList : Str).reverse = ['z', 'g', '.'] from rfl] at h'
  simp at h'

/-- Nothing happens to the other files. -/
theorem crash_files (w : Store τ) (p : Path) (t : τ) (c : CrashPoint) (hp : written p = p) (q : Path) (hq : q ≠ p) :
    Dict.get? (w.crash p t c).files q = Dict.get? w.files q := by
  have e : ∀ x, Dict.get? (Dict.set w.files (written p) x) q = Dict.get? w.files q := by
    intro x
    rw [hp, Dict.get?_set, if_neg (Ne.symm hq)]
  cases c
  · rfl
  · exact e _
  · exact e _
  · exact e _

theorem ex_iff (w : Store τ) (q : Path) : w.ex q = (Dict.get? w.files q).isSome := by
  unfold Store.ex
  cases h : Dict.get? w.files q with
  | none => rw [decide_eq_false (Dict.get?_eq_none_iff.1 h)]; rfl
  | some c => rw [decide_eq_true (Dict.mem_keys_of_get? h)]; rfl

/-- A registered table is looked up and read in the same way in stores that differ only in a file of another name. -/
theorem scipy_other (le : Str → Str → Bool) (w w' : Store τ) (r : TblRun) (f : Str) (build : Py τ)
    (hconf : w'.conf = w.conf) (hc : w.cache = []) (hc' : w'.cache = [])
    (hreg : Dict.get? w.conf.vars r.id = some (.table f))
    (hf : ∀ q : Path, q.2 = f ∨ q.2 = f ++ ".gz".toList ∨ q.2 = f ++ ".gz".toList ++ ".gz".toList →
      Dict.get? w'.files q = Dict.get? w.files q) :
    (w'.scipy le r build).1 = (w.scipy le r build).1 := by
  have hex : ∀ q : Path, q.2 = f ∨ q.2 = f ++ ".gz".toList ∨ q.2 = f ++ ".gz".toList ++ ".gz".toList →
      w'.ex q = w.ex q := by
    intro q hq
    rw [ex_iff, ex_iff, hf q hq]
  have hany : ∀ q : Path, q.2 = f ∨ q.2 = f ++ ".gz".toList → w'.exAny q = w.exAny q := by
    intro q hq
    unfold Store.exAny
    rw [hex q (hq.elim Or.inl (fun h => Or.inr (Or.inl h))), hex (gz q)]
    unfold Store.gz
    rcases hq with h | h
    · right; left; rw [h]
    · right; right; rw [h]
  have hload : ∀ q : Path, q.2 = f ∨ q.2 = f ++ ".gz".toList ∨ q.2 = f ++ ".gz".toList ++ ".gz".toList →
      w'.load q = w.load q := by
    intro q hq
    unfold Store.load
    rw [hf q hq]
  have hla : ∀ q : Path, q.2 = f ∨ q.2 = f ++ ".gz".toList → w'.loadAny q = w.loadAny q := by
    intro q hq
    have hg : (gz q).2 = f ∨ (gz q).2 = f ++ ".gz".toList ∨ (gz q).2 = f ++ ".gz".toList ++ ".gz".toList := by
      unfold Store.gz
      rcases hq with h | h
      · right; left; rw [h]
      · right; right; rw [h]
    have hq' := hq.elim Or.inl (fun h => Or.inr (Or.inl h)) (c := q.2 = f ∨ q.2 = f ++ ".gz".toList ∨ q.2 = f ++ ".gz".toList ++ ".gz".toList)
    unfold Store.loadAny
    rw [hex q hq', hex _ hg, hload q hq', hload _ hg]
  have hread : ∀ (v : Store τ) (p : Path), v.cache = [] → (v.read p).1 = v.loadAny p := by
    intro v p hv
    rcases read_spec v p with ⟨t, h1, e⟩ | ⟨-, t, h1, e⟩ | ⟨-, e', h1, e⟩
    · rw [hv] at h1; cases h1
    · rw [e, h1]
    · rw [e, h1]
  have hglob : w'.globalPath r f = w.globalPath r f := by
    unfold Store.globalPath inDir
    cases r.globalDir with
    | none => rfl
    | some g =>
      dsimp only [bind, Except.bind]
      rw [hany (g, f) (Or.inl rfl)]
  have hpath : w'.tablePath r = w.tablePath r := by
    unfold Store.tablePath
    rw [hconf, hreg]
    dsimp only
    unfold Store.registeredPath
    cases r.userDir with
    | none => exact hglob
    | some d =>
      dsimp only
      rw [hany (d, f) (Or.inl rfl), hglob]
  have hname : ∀ p, w.tablePath r = .ok p → p.2 = f ∨ p.2 = f ++ ".gz".toList := by
    intro p hp
    have hrec : ∀ p, Store.recreatePath r f = .ok p → p.2 = f ∨ p.2 = f ++ ".gz".toList := by
      intro p hp
      unfold Store.recreatePath at hp
      split at hp
      · cases hp
      · cases hw : r.write with
        | error e => rw [hw] at hp; cases hp
        | ok u =>
          rw [hw] at hp
          dsimp only [bind, Except.bind] at hp
          unfold inDir at hp
          cases hd : r.userDir with
          | none => rw [hd] at hp; cases hp
          | some d =>
            rw [hd] at hp
            rw [← Except.ok.inj hp]
            dsimp only
            split
            · exact Or.inl rfl
            · exact Or.inr rfl
    have hgl : ∀ p, w.globalPath r f = .ok p → p.2 = f ∨ p.2 = f ++ ".gz".toList := by
      intro p hp
      unfold Store.globalPath inDir at hp
      cases hg : r.globalDir with
      | none => rw [hg] at hp; cases hp
      | some g =>
        rw [hg] at hp
        dsimp only [bind, Except.bind] at hp
        split at hp
        · rw [← Except.ok.inj hp]; exact Or.inl rfl
        · exact hrec p hp
    unfold Store.tablePath at hp
    rw [hreg] at hp
    dsimp only at hp
    unfold Store.registeredPath at hp
    cases hd : r.userDir with
    | none => rw [hd] at hp; exact hgl p hp
    | some d =>
      rw [hd] at hp
      dsimp only at hp
      split at hp
      · rw [← Except.ok.inj hp]; exact Or.inl rfl
      · exact hgl p hp
  unfold Store.scipy
  rw [hpath]
  cases hp : w.tablePath r with
  | error e => rfl
  | ok p =>
    dsimp only
    unfold Store.scipyAt
    rw [hany p (hname p hp)]
    by_cases hx : w.exAny p = true
    · rw [if_pos hx, if_pos hx, hread _ _ hc, hread _ _ hc', hla p (hname p hp)]
    · rw [if_neg hx, if_neg hx]
      by_cases hcr : r.create = true
      · rw [if_pos hcr, if_pos hcr]
        cases r.write with
        | error e => rfl
        | ok u =>
          dsimp only
          cases build <;> rfl
      · rw [if_neg hcr, if_neg hcr]

/-- **C82** (the part that holds). A process has just read its configuration (user registry `u`). A run of a table
that is not registered is interrupted before, while or after the table file is written, but before the registry is
written. Then the next process starts with the same registry, and
* the same run succeeds with the table built then, under a name that was free;
* every other file is as before, and runs of registered tables of other file names have the outcome they would have
  had.
What is missing: an interruption while the registry is written (`crash_dumping`) and one while the missing file of a
registered table is written again (`crash_recreate`). -/
theorem crash_harmless_partial (le : Str → Str → Bool) (global template u : Dict Str TblEntry) (w : Store τ)
    (hw : w.conf = ⟨Dict.update global u, u, some (.obj u)⟩) (hcache : w.cache = []) (r : TblRun) (d : Str)
    (hid : r.id ∉ Dict.keys w.conf.vars) (hc : r.create = true) (hwr : r.write = .ok ()) (hd : r.userDir = some d)
    (hzz : ∀ q ∈ Dict.keys w.files, ∀ s : Str, q.2 ≠ s ++ ".gz".toList ++ ".gz".toList)
    (p : Path) (hp : w.tablePath r = .ok p) (t : τ) (c : CrashPoint) (hcp : c ≠ .dumping) :
    ∃ w' : Store τ, (w.crash p t c).restart le global template = .ok w' ∧ w'.conf = w.conf ∧
      (∀ q, q ≠ p → Dict.get? w'.files q = Dict.get? w.files q) ∧
      (∀ t', (w'.scipy le r (.ok t')).1 = .ok t' ∧ ∃ p', w'.tablePath r = .ok p' ∧ p' ∉ Dict.keys w'.files ∧
        Dict.get? (w'.scipy le r (.ok t')).2.files p' = some (.whole t')) ∧
      (∀ r2 f build, Dict.get? w.conf.vars r2.id = some (.table f) → p.2 ≠ f → p.2 ≠ f ++ ".gz".toList →
        (w'.scipy le r2 build).1 = (w.scipy le r2 build).1) := by
  obtain ⟨k, hpk, -, -⟩ := scipy_new le w r d t hid hc hwr hd hzz
  have hpp : p = (d, r.name k) := by rw [hpk] at hp; exact (Except.ok.inj hp).symm
  have hgz : isGz p.2 = true := by rw [hpp]; exact isGz_name r k
  have hwp : written p = p := written_eq (Or.inl hgz)
  have hdisk : (w.crash p t c).conf = w.conf := by
    cases c
    · rfl
    · rfl
    · rfl
    · exact absurd rfl hcp
  have hre : (w.crash p t c).restart le global template =
      .ok { w.crash p t c with conf := w.conf, cache := [] } := by
    unfold Store.restart
    rw [hdisk, hw]
    rfl
  have hfiles : ∀ q, q ≠ p → Dict.get? (w.crash p t c).files q = Dict.get? w.files q :=
    fun q hq => crash_files w p t c hwp q hq
  refine ⟨_, hre, rfl, hfiles, ?_, ?_⟩
  · intro t'
    have hzz' : ∀ q ∈ Dict.keys (w.crash p t c).files, ∀ s : Str, q.2 ≠ s ++ ".gz".toList ++ ".gz".toList := by
      intro q hq s
      by_cases hqp : q = p
      · rw [hqp, hpp]; exact name_not_gzgz r k s
      · refine hzz q ?_ s
        by_contra hn
        have h1 := Dict.get?_eq_none_iff.2 hn
        rw [← hfiles q hqp] at h1
        exact Dict.get?_eq_none_iff.1 h1 hq
    obtain ⟨k', h1, h2, h3⟩ := scipy_new le { w.crash p t c with conf := w.conf, cache := [] } r d t' hid hc hwr hd hzz'
    rw [h3]
    refine ⟨rfl, _, h1, ?_, ?_⟩
    · intro hm
      unfold Store.exAny at h2
      have := (Bool.or_eq_false_iff.1 h2).1
      exact of_decide_eq_false this hm
    · rw [files_created _ _ _ _ _ (written_eq (Or.inl (isGz_name r k'))), if_pos rfl]
  · intro r2 f build hreg hf1 hf2
    refine scipy_other le w _ r2 f build rfl hcache rfl hreg ?_
    intro q hq
    refine hfiles q ?_
    rintro rfl
    rcases hq with h | h | h
    · exact hf1 h
    · exact hf2 h
    · rw [hpp] at h
      exact name_not_gzgz r k f h

/-- Non-vacuity of C82: a registry with one table, a run of another grid interrupted while the table is written. -/
example (le : Str → Str → Bool) : ∃ (w w' : Store Nat) (p : Path), w.tablePath (Demo.tblRun "b" "t" true) = .ok p ∧
    (w.crash p 2 .saving).restart le [] [] = .ok w' ∧ Dict.get? w'.files p = some .damaged ∧
    (w'.scipy le (Demo.tblRun "b" "t" true) (.ok 3)).1 = .ok 3 ∧
    (w'.scipy le (Demo.tblRun "a" "t" true) (.ok 3)).1 = .ok 1 := by
  obtain ⟨w, hw⟩ : ∃ w : Store Nat, w = ⟨⟨[((Demo.tblRun "a" "t" true).id, .table "x.npy.gz".toList)],
    [((Demo.tblRun "a" "t" true).id, .table "x.npy.gz".toList)],
    some (.obj [((Demo.tblRun "a" "t" true).id, .table "x.npy.gz".toList)])⟩,
    [(("/u".toList, "x.npy.gz".toList), .whole 1)], []⟩ := ⟨_, rfl⟩
  have hid : (Demo.tblRun "b" "t" true).id ∉ Dict.keys w.conf.vars := by rw [hw]; decide +kernel
  have hzz : ∀ q ∈ Dict.keys w.files, ∀ s : Str, q.2 ≠ s ++ ".gz".toList ++ ".gz".toList := by
    rw [hw]
    intro q hq s
    rw [List.mem_singleton.1 hq]
    intro h
    have h' := congrArg (fun l : Str => l.reverse.take 4) h
    simp only [List.reverse_append, List.append_assoc] at h'
    rw [show ("x.npy.gz".toList : Str).reverse.take 4 = "zg.y".toList by decide +kernel,
      show (".gz".toList : Str).reverse = ['z', 'g', '.'] from rfl] at h'
    simp at h'
  obtain ⟨k, hp, -, -⟩ := scipy_new le w (Demo.tblRun "b" "t" true) "/u".toList 2 hid rfl rfl rfl hzz
  obtain ⟨w', h1, h2, h3, h4, h5⟩ := crash_harmless_partial le [] []
    [((Demo.tblRun "a" "t" true).id, .table "x.npy.gz".toList)] w (by rw [hw]; rfl) (by rw [hw])
    (Demo.tblRun "b" "t" true) "/u".toList hid rfl rfl rfl hzz _ hp 2 .saving (by simp)
  refine ⟨w, w', _, hp, h1, ?_, (h4 3).1, ?_⟩
  · unfold Store.restart at h1
    rw [hw] at h1
    rw [← Except.ok.inj h1]
    change Dict.get? (Dict.set _ _ _) _ = _
    rw [if_pos (isGz_name _ _), Dict.get?_set, if_pos rfl]
  · have hne : ∀ s : Str, (Demo.tblRun "b" "t" true).name k ≠ 'x' :: s := by
      intro s h
      unfold TblRun.name tableName at h
      exact absurd (List.cons.inj h).1 (by decide)
    rw [h5 (Demo.tblRun "a" "t" true) "x.npy.gz".toList (.ok 3) (by rw [hw]; decide +kernel) (hne _) (hne _)]
    refine ((table_lookup_partial le w (Demo.tblRun "a" "t" true) "x.npy.gz".toList "/u".toList "/g".toList (.ok 3)
      (by rw [hw]; decide +kernel) rfl (by decide) rfl (by rw [hw]) hzz).1 ("/u".toList, "x.npy.gz".toList) 1 ?_ ?_).1
    · rw [hw]; decide +kernel
    · rw [hw]; decide +kernel

/-- C82 is false of the program: when the process is interrupted while the registry is written, no later process
starts (error 8200). -/
theorem crash_dumping (le : Str → Str → Bool) (global template : Dict Str TblEntry) (w : Store τ) (p : Path) (t : τ) :
    (w.crash p t .dumping).restart le global template = .error (.app 8200) := rfl

/-- C82 is false of the program: when the missing file of a registered table is written again and the process is
interrupted meanwhile, the damaged file stays, and every later run of that table fails. -/
theorem crash_recreate (le : Str → Str → Bool) (global template u : Dict Str TblEntry) (w : Store τ)
    (hw : w.conf = ⟨Dict.update global u, u, some (.obj u)⟩) (r : TblRun) (d f : Str)
    (hd : r.userDir = some d) (hne : d ≠ []) (hreg : Dict.get? w.conf.vars r.id = some (.table f)) (hf : isGz f = true)
    (t : τ) (w' : Store τ) (hre : (w.crash (d, f) t .saving).restart le global template = .ok w') (build : Py τ) :
    w'.scipy le r build = (.error .valueError, w') := by
  have e : w' = { w.crash (d, f) t .saving with conf := w.conf, cache := [] } := by
    unfold Store.restart at hre
    rw [show (w.crash (d, f) t .saving).conf = w.conf from rfl, hw] at hre
    rw [hw, ← Except.ok.inj hre]
  have hfile : Dict.get? w'.files (d, f) = some .damaged := by
    rw [e]
    change Dict.get? (Dict.set w.files (d, if isGz f then f else npyName f) .damaged) (d, f) = _
    rw [if_pos hf, Dict.get?_set, if_pos rfl]
  have hex : w'.ex (d, f) = true := decide_eq_true (Dict.mem_keys_of_get? hfile)
  have hx : w'.exAny (d, f) = true := by unfold Store.exAny; rw [hex]; rfl
  have hreg' : Dict.get? w'.conf.vars r.id = some (.table f) := by rw [e]; exact hreg
  have hcache : w'.cache = [] := by rw [e]
  have hp : w'.tablePath r = .ok (d, f) := by
    unfold Store.tablePath
    rw [hreg']
    dsimp only
    unfold Store.registeredPath
    rw [hd]
    dsimp only
    rw [if_pos ⟨hne, hx⟩]
  unfold Store.scipy
  rw [hp]
  dsimp only
  unfold Store.scipyAt
  rw [if_pos hx]
  have hl : w'.loadAny (d, f) = .error .valueError := by
    unfold Store.loadAny
    rw [if_pos hf]
    unfold Store.load
    rw [hfile]
  unfold Store.read
  rw [hcache, hl]
  rfl

/-- Non-vacuity of `crash_recreate`: a registered table without file is to be written to `/u`; the run is interrupted. -/
example (le : Str → Str → Bool) : ∃ (w w' : Store Nat) (f : Str),
    w.tablePath (Demo.tblRun "a" "t" true) = .ok ("/u".toList, f) ∧ w.files = [] ∧
    (w.crash ("/u".toList, f) 2 .saving).restart le [] [] = .ok w' ∧
    (w'.scipy le (Demo.tblRun "a" "t" true) (.ok 3)).1 = .error .valueError := by
  obtain ⟨w, hw⟩ : ∃ w : Store Nat, w = ⟨⟨[((Demo.tblRun "a" "t" true).id, .table "x.npy.gz".toList)],
    [((Demo.tblRun "a" "t" true).id, .table "x.npy.gz".toList)],
    some (.obj [((Demo.tblRun "a" "t" true).id, .table "x.npy.gz".toList)])⟩, [], []⟩ := ⟨_, rfl⟩
  refine ⟨w, _, "x.npy.gz".toList, (by rw [hw]; decide +kernel), (by rw [hw]), (by rw [hw]; rfl), ?_⟩
  rw [crash_recreate le [] [] [((Demo.tblRun "a" "t" true).id, .table "x.npy.gz".toList)] w (by rw [hw]; rfl)
    (Demo.tblRun "a" "t" true) "/u".toList "x.npy.gz".toList rfl (by decide) (by rw [hw]; decide +kernel)
    (by decide +kernel) 2 _ (by rw [hw]; rfl) (.ok 3)]

end PyG2P
