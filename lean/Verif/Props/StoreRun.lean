import Verif.Model.StoreRun
import Verif.Props.TablesHistory
import Verif.Props.PipelineRun
import Verif.Props.Api

/-! # C131, C132: whole runs with their interpolation tables -/

namespace PyG2P
open Store
variable {n m k : Nat}

namespace Spec

/-- The table of a lookup is in the user's folder: it is not there yet (the lookup would create it), or it is registered
as a compressed file of that folder. -/
def OwnTable (w : Store (Table k)) (q : Lookup k) : Prop :=
  ∃ d, d ≠ [] ∧ q.run.userDir = some d ∧
    ((∀ p, w.tablePath q.run = .ok p → w.exAny p = false) ∨
      ∃ f t, isGz f = true ∧ Registered d f q.run.id t w)

end Spec
open Spec

/-- What holds in every state that the program reaches. -/
structure Sound (w : Store (Table k)) : Prop where
  cache : CacheOK w
  names : NamesOK w
  distinct : Distinct w

theorem table_cases (le : Str → Str → Bool) (w : Store (Table k)) (q : Lookup k) :
    w.table le q = w.scipy le q.run q.build ∨ ∃ c, w.table le q = w.grib le c q.run q.build := by
  unfold Store.table
  cases q.scipy
  · exact .inr ⟨_, rfl⟩
  · exact .inl rfl

theorem table_act (le : Str → Str → Bool) (w : Store (Table k)) (q : Lookup k) :
    ∃ a : Act (Table k), ∀ global template, (w.table le q).2 = act le global template w a := by
  rcases table_cases le w q with h | ⟨c, h⟩
  · exact ⟨.scipy q.run q.build, fun _ _ => by rw [h]; rfl⟩
  · exact ⟨.grib c q.run q.build, fun _ _ => by rw [h]; rfl⟩

theorem sound_act (le : Str → Str → Bool) (global template : Dict Str TblEntry) (hg : NpyNames global)
    (ht : NpyNames template) (hu : (Dict.keys template).Nodup) {w : Store (Table k)} (h : Sound w) (a : Act (Table k)) :
    Sound (act le global template w a) := by
  obtain ⟨h1, h2⟩ := act_inv le global template hg ht w a h.cache h.names
  exact ⟨h1, h2, distinct_act le global template hu w a h.distinct⟩

theorem sound_after (le : Str → Str → Bool) (global template : Dict Str TblEntry) (hg : NpyNames global)
    (ht : NpyNames template) (hu : (Dict.keys template).Nodup) {w : Store (Table k)} (h : Sound w)
    (l : List (Act (Table k))) : Sound (after le global template w l) := by
  induction l generalizing w with
  | nil => exact h
  | cons a l ih => exact ih (sound_act le global template hg ht hu h a)

theorem npyNames_nil : NpyNames [] := by intro q hq; cases hq

theorem sound_table (le : Str → Str → Bool) {w : Store (Table k)} (h : Sound w) (q : Lookup k) :
    Sound (w.table le q).2 := by
  obtain ⟨a, ha⟩ := table_act le w q
  rw [ha [] []]
  exact sound_act le [] [] npyNames_nil npyNames_nil List.nodup_nil h a

theorem registered_table (le : Str → Str → Bool) {w : Store (Table k)} {d f id : Str} {t : Table k} (hs : Sound w)
    (hf : isGz f = true) (h : Registered d f id t w) (q : Lookup k) : Registered d f id t (w.table le q).2 := by
  obtain ⟨a, ha⟩ := table_act le w q
  rw [ha [] []]
  exact registered_act le [] [] h hf hs.names a

theorem registered_same {w w' : Store (Table k)} {d f id : Str} {t : Table k} (h : Registered d f id t w)
    (hf : w'.files = w.files) (hc : w'.conf = w.conf) : Registered d f id t w' := by
  obtain ⟨h1, h2, h3, h4, h5⟩ := h
  exact ⟨by rw [hf]; exact h1, by rw [hc]; exact h2, by rw [hc]; exact h3, by rw [hc]; exact h4, by rw [hc]; exact h5⟩

theorem tablePath_same {w w' : Store (Table k)} (hf : w'.files = w.files) (hc : w'.conf = w.conf) (r : TblRun) :
    w'.tablePath r = w.tablePath r := by
  obtain ⟨c, f, ca⟩ := w
  obtain ⟨c', f', ca'⟩ := w'
  dsimp only at hf hc
  subst hf hc
  rfl

theorem own_same {w w' : Store (Table k)} {q : Lookup k} (h : OwnTable w q) (hf : w'.files = w.files)
    (hc : w'.conf = w.conf) : OwnTable w' q := by
  obtain ⟨d, h1, h2, h⟩ := h
  refine ⟨d, h1, h2, ?_⟩
  rcases h with h | ⟨f, t, h3, h4⟩
  · left
    intro p hp
    rw [tablePath_same hf hc] at hp
    have := h p hp
    unfold Store.exAny Store.ex at this ⊢
    rw [hf]
    exact this
  · exact .inr ⟨f, t, h3, registered_same h4 hf hc⟩

/-- The table of lookup `q` is settled: it is `t`, in the user's folder. -/
def Settled (w : Store (Table k)) (q : Lookup k) (t : Table k) : Prop :=
  ∃ d f, d ≠ [] ∧ q.run.userDir = some d ∧ isGz f = true ∧ Registered d f q.run.id t w

theorem settled_lookup (le : Str → Str → Bool) {w : Store (Table k)} (hs : Sound w) {q : Lookup k} {t : Table k}
    (h : Settled w q t) : (w.table le q).1 = .ok t ∧ (w.table le q).2.files = w.files ∧ (w.table le q).2.conf = w.conf := by
  obtain ⟨d, f, h1, h2, h3, h4⟩ := h
  exact registered_used h4 hs.cache h2 h1 le q.build _ (table_cases le w q)

theorem settled_table (le : Str → Str → Bool) {w : Store (Table k)} (hs : Sound w) {q q' : Lookup k} {t : Table k}
    (h : Settled w q t) : Settled (w.table le q').2 q t := by
  obtain ⟨d, f, h1, h2, h3, h4⟩ := h
  exact ⟨d, f, h1, h2, h3, registered_table le hs h3 h4 q'⟩

/-- A lookup that succeeds settles its table. -/
theorem own_lookup (le : Str → Str → Bool) {w : Store (Table k)} (hs : Sound w) {q : Lookup k} (h : OwnTable w q)
    {t : Table k} (ht : (w.table le q).1 = .ok t) : Settled (w.table le q).2 q t := by
  obtain ⟨d, h1, h2, h⟩ := h
  rcases h with h | ⟨f, t', h3, h4⟩
  · obtain ⟨p, hp1, hp2, hp3⟩ := created_registered le hs.names hs.distinct.1 (table_cases le w q) ht h
    refine ⟨p.1, p.2, ?_, hp2, hp1, hp3⟩
    rw [h2] at hp2
    rw [← Option.some.inj hp2]
    exact h1
  · have := (settled_lookup le hs ⟨d, f, h1, h2, h3, h4⟩).1
    rw [ht] at this
    have := Except.ok.inj this
    subst this
    exact ⟨d, f, h1, h2, h3, registered_table le hs h3 h4 q⟩

/-- The maps with known tables. -/
def pureMaps {β γ : Type} (r : RunIn n m k) (t t2 : Table k) (put : γ → Arr k → β)
    (l : List (γ × Field n m × Bool)) : Py (List β) :=
  l.mapM fun e => (r.renderBy (if e.2.2 then t2 else t) e.2.2 e.2.1).map (put e.1)

theorem pure_cons {β γ : Type} (r : RunIn n m k) (t t2 : Table k) (put : γ → Arr k → β) (x : γ) (f : Field n m)
    (b : Bool) (l : List (γ × Field n m × Bool)) (a : Arr k) (ha : r.renderBy (if b then t2 else t) b f = .ok a)
    (o : List β) : pureMaps r t t2 put ((x, f, b) :: l) = .ok (put x a :: o) ↔ pureMaps r t t2 put l = .ok o := by
  unfold pureMaps
  rw [List.mapM_cons]
  dsimp only
  rw [ha]
  rw [show (Except.ok a : Py (Arr k)).map (put x) = .ok (put x a) from rfl, ok_bind]
  generalize List.mapM (m := Py) (fun e => (r.renderBy (if e.2.2 then t2 else t) e.2.2 e.2.1).map (put e.1)) l = y
  cases y with
  | error e => exact ⟨(by intro h; cases h), (by intro h; cases h)⟩
  | ok v =>
    constructor
    · intro h
      have h := Except.ok.inj h
      rw [(List.cons.inj h).2]
    · intro h
      rw [Except.ok.inj h]
      rfl

section
variable {β γ : Type} (le : Str → Str → Bool) (r : RunIn n m k) (put : γ → Arr k → β)

/-- With settled tables: the maps are those of these tables, and nothing is changed on disk. -/
theorem loop_settled (q q2 : Lookup k) (t t2 : Table k) (l : List (γ × Field n m × Bool)) (w : Store (Table k))
    (hs : Sound w) (h1 : ∀ e ∈ l, e.2.2 = false → Settled w q t) (h2 : ∀ e ∈ l, e.2.2 = true → Settled w q2 t2) :
    ((r.mapLoop le q q2 put w l).error = none → pureMaps r t t2 put l = .ok (r.mapLoop le q q2 put w l).maps) ∧
    (∀ o, pureMaps r t t2 put l = .ok o →
      (r.mapLoop le q q2 put w l).maps = o ∧ (r.mapLoop le q q2 put w l).error = none) ∧
    (r.mapLoop le q q2 put w l).store.files = w.files ∧ (r.mapLoop le q q2 put w l).store.conf = w.conf ∧
    Sound (r.mapLoop le q q2 put w l).store := by
  induction l generalizing w with
  | nil => exact ⟨fun _ => rfl, fun o h => ⟨Except.ok.inj h, rfl⟩, rfl, rfl, hs⟩
  | cons e l ih =>
    obtain ⟨x, f, b⟩ := e
    have hset : Settled w (if b then q2 else q) (if b then t2 else t) := by
      cases b
      · exact h1 _ List.mem_cons_self rfl
      · exact h2 _ List.mem_cons_self rfl
    obtain ⟨e1, e2, e3⟩ := settled_lookup le hs hset
    have hs' := sound_table le hs (if b then q2 else q)
    unfold RunIn.mapLoop
    have hpair : w.table le (if b then q2 else q) = (.ok (if b then t2 else t), (w.table le (if b then q2 else q)).2) :=
      Prod.ext e1 rfl
    have ih := ih (w.table le (if b then q2 else q)).2 hs'
      (fun e he hb => settled_table le hs (h1 e (List.mem_cons_of_mem _ he) hb))
      (fun e he hb => settled_table le hs (h2 e (List.mem_cons_of_mem _ he) hb))
    generalize (w.table le (if b then q2 else q)).2 = w' at *
    rw [hpair]
    dsimp only
    cases hr : r.renderBy (if b then t2 else t) b f with
    | error e =>
      dsimp only
      refine ⟨(by intro h; cases h), ?_, e2, e3, hs'⟩
      intro o h
      unfold pureMaps at h
      rw [List.mapM_cons] at h
      dsimp only at h
      rw [hr] at h
      cases h
    | ok a =>
      dsimp only
      obtain ⟨i1, i2, i3, i4, i5⟩ := ih
      refine ⟨fun h => (pure_cons r t t2 put x f b l a hr _).2 (i1 h), ?_, i3.trans e2, i4.trans e3, i5⟩
      intro o h
      have hl : ∃ o', o = put x a :: o' := by
        unfold pureMaps at h
        rw [List.mapM_cons] at h
        dsimp only at h
        rw [hr] at h
        obtain ⟨y, hy, h⟩ := bind_ok_iff.1 h
        obtain ⟨o', -, h⟩ := bind_ok_iff.1 h
        cases hy
        exact ⟨o', (Except.ok.inj h).symm⟩
      obtain ⟨o', rfl⟩ := hl
      obtain ⟨j1, j2⟩ := i2 o' ((pure_cons r t t2 put x f b l a hr o').1 h)
      exact ⟨by rw [j1], j2⟩

/-- The second grid, once in use, stays in use. -/
def Monotone2 (l : List (γ × Field n m × Bool)) : Prop := l.Pairwise fun a b => a.2.2 = true → b.2.2 = true

/-- What a run that ends without error leaves behind, its tables being in the user's folder. -/
structure Done (q q2 : Lookup k) (t t2 : Table k) (l : List (γ × Field n m × Bool)) (o : Outcome k β) : Prop where
  maps : pureMaps r t t2 put l = .ok o.maps
  sound : Sound o.store
  first : ∀ e ∈ l, e.2.2 = false → Settled o.store q t
  second : ∀ e ∈ l, e.2.2 = true → Settled o.store q2 t2

theorem settled_same {w w' : Store (Table k)} {q : Lookup k} {t : Table k} (h : Settled w q t)
    (hf : w'.files = w.files) (hc : w'.conf = w.conf) : Settled w' q t := by
  obtain ⟨d, f, h1, h2, h3, h4⟩ := h
  exact ⟨d, f, h1, h2, h3, registered_same h4 hf hc⟩

theorem done_settled (q q2 : Lookup k) (t t2 : Table k) (l : List (γ × Field n m × Bool)) (w : Store (Table k))
    (hs : Sound w) (h1 : ∀ e ∈ l, e.2.2 = false → Settled w q t) (h2 : ∀ e ∈ l, e.2.2 = true → Settled w q2 t2)
    (he : (r.mapLoop le q q2 put w l).error = none) : Done r put q q2 t t2 l (r.mapLoop le q q2 put w l) := by
  obtain ⟨i1, -, i3, i4, i5⟩ := loop_settled le r put q q2 t t2 l w hs h1 h2
  exact ⟨i1 he, i5, fun e hm hb => settled_same (h1 e hm hb) i3 i4, fun e hm hb => settled_same (h2 e hm hb) i3 i4⟩

/-- One map without error. -/
theorem loop_cons {q q2 : Lookup k} {x : γ} {f : Field n m} {b : Bool} {l : List (γ × Field n m × Bool)}
    {w : Store (Table k)} (he : (r.mapLoop le q q2 put w ((x, f, b) :: l)).error = none) :
    ∃ t a, (w.table le (if b then q2 else q)).1 = .ok t ∧ r.renderBy t b f = .ok a ∧
      r.mapLoop le q q2 put w ((x, f, b) :: l) =
        ⟨put x a :: (r.mapLoop le q q2 put (w.table le (if b then q2 else q)).2 l).maps,
          (r.mapLoop le q q2 put (w.table le (if b then q2 else q)).2 l).error,
          (r.mapLoop le q q2 put (w.table le (if b then q2 else q)).2 l).store⟩ ∧
      (r.mapLoop le q q2 put (w.table le (if b then q2 else q)).2 l).error = none := by
  unfold RunIn.mapLoop at he
  conv in r.mapLoop le q q2 put w ((x, f, b) :: l) => unfold RunIn.mapLoop
  cases ht : w.table le (if b then q2 else q) with
  | mk y w' =>
    rw [ht] at he
    cases y with
    | error e => cases he
    | ok t =>
      dsimp only at he ⊢
      cases hr : r.renderBy t b f with
      | error e => rw [hr] at he; cases he
      | ok a =>
        rw [hr] at he
        exact ⟨t, a, rfl, hr, rfl, he⟩

/-- All maps on the second grid. -/
theorem loop_second (q q2 : Lookup k) (t : Table k) (l : List (γ × Field n m × Bool)) (w : Store (Table k))
    (hs : Sound w) (hall : ∀ e ∈ l, e.2.2 = true) (hq : l = [] ∨ OwnTable w q2)
    (he : (r.mapLoop le q q2 put w l).error = none) :
    ∃ t2, Done r put q q2 t t2 l (r.mapLoop le q q2 put w l) := by
  cases l with
  | nil => exact ⟨t, rfl, hs, (by intro e h; cases h), (by intro e h; cases h)⟩
  | cons e l =>
    obtain ⟨x, f, b⟩ := e
    have hb : b = true := hall _ List.mem_cons_self
    subst hb
    have hq : OwnTable w q2 := by
      rcases hq with h | h
      · cases h
      · exact h
    obtain ⟨t2, a, h1, h2, h3, h4⟩ := loop_cons le r put he
    rw [if_pos rfl] at h1 h3 h4
    have hset := own_lookup le hs hq h1
    have hd := done_settled le r put q q2 t t2 l _ (sound_table le hs q2)
      (fun e he hb => by rw [hall e (List.mem_cons_of_mem _ he)] at hb; cases hb) (fun _ _ _ => hset) h4
    refine ⟨t2, ?_⟩
    rw [h3]
    refine ⟨(pure_cons r t t2 put x f true l a (by rw [if_pos rfl]; exact h2) _).2 hd.maps, hd.sound, ?_, ?_⟩
    · intro e he hb
      rw [hall e he] at hb
      cases hb
    · intro e _ _
      obtain ⟨-, -, i3, i4, -⟩ := loop_settled le r put q q2 t t2 l _ (sound_table le hs q2)
        (fun e he hb => by rw [hall e (List.mem_cons_of_mem _ he)] at hb; cases hb) (fun _ _ _ => hset)
      exact settled_same hset i3 i4

/-- The first grid's table is settled. -/
theorem loop_first (q q2 : Lookup k) (t : Table k) (l : List (γ × Field n m × Bool)) (w : Store (Table k))
    (hs : Sound w) (hm : Monotone2 l) (hq1 : Settled w q t) (hq : OwnTable w q2)
    (he : (r.mapLoop le q q2 put w l).error = none) :
    ∃ t2, Done r put q q2 t t2 l (r.mapLoop le q q2 put w l) ∧ Settled (r.mapLoop le q q2 put w l).store q t := by
  induction l generalizing w with
  | nil => exact ⟨t, ⟨rfl, hs, (by intro e h; cases h), (by intro e h; cases h)⟩, hq1⟩
  | cons e l ih =>
    obtain ⟨x, f, b⟩ := e
    obtain ⟨hm1, hm2⟩ := List.pairwise_cons.1 hm
    obtain ⟨tb, a, h1, h2, h3, h4⟩ := loop_cons le r put he
    cases b with
    | false =>
      rw [if_neg (by decide)] at h1 h3 h4
      obtain ⟨e1, e2, e3⟩ := settled_lookup le hs hq1
      rw [e1] at h1
      have h1 := Except.ok.inj h1
      subst h1
      obtain ⟨t2, hd, hlast⟩ := ih _ (sound_table le hs q) hm2 (settled_table le hs hq1) (own_same hq e2 e3) h4
      refine ⟨t2, ?_, by rw [h3]; exact hlast⟩
      rw [h3]
      refine ⟨(pure_cons r t t2 put x f false l a h2 _).2 hd.maps, hd.sound, fun _ _ _ => hlast, ?_⟩
      intro e he hb
      rcases List.mem_cons.1 he with rfl | he
      · cases hb
      · exact hd.second e he hb
    | true =>
      rw [if_pos rfl] at h1 h3 h4
      have hset := own_lookup le hs hq h1
      have hall : ∀ e ∈ l, e.2.2 = true := fun e he => hm1 e he rfl
      obtain ⟨i1, -, i3, i4, i5⟩ := loop_settled le r put q q2 t tb l _ (sound_table le hs q2)
        (fun e he hb => by rw [hall e he] at hb; cases hb) (fun _ _ _ => hset)
      have hlast : Settled (r.mapLoop le q q2 put (w.table le q2).2 l).store q t :=
        settled_same (settled_table le hs hq1) i3 i4
      refine ⟨tb, ?_, by rw [h3]; exact hlast⟩
      rw [h3]
      exact ⟨(pure_cons r t tb put x f true l a (by rw [if_pos rfl]; exact h2) _).2 (i1 h4), i5,
        fun _ _ _ => hlast, fun _ _ _ => settled_same hset i3 i4⟩

/-- A run without error: each grid has one table for all its maps. -/
theorem loop_done (q q2 : Lookup k) (l : List (γ × Field n m × Bool)) (w : Store (Table k)) (hs : Sound w)
    (hm : Monotone2 l) (hne : l ≠ []) (hq1 : OwnTable w q) (hq2 : OwnTable w q2) (hq : OwnTable (w.table le q).2 q2)
    (he : (r.mapLoop le q q2 put w l).error = none) :
    ∃ t t2, Done r put q q2 t t2 l (r.mapLoop le q q2 put w l) := by
  cases l with
  | nil => exact absurd rfl hne
  | cons e l =>
    obtain ⟨x, f, b⟩ := e
    obtain ⟨hm1, hm2⟩ := List.pairwise_cons.1 hm
    obtain ⟨tb, a, h1, h2, h3, h4⟩ := loop_cons le r put he
    cases b with
    | false =>
      rw [if_neg (by decide)] at h1 h3 h4
      have hset := own_lookup le hs hq1 h1
      obtain ⟨t2, hd, hlast⟩ := loop_first le r put q q2 tb l _ (sound_table le hs q) hm2 hset hq h4
      refine ⟨tb, t2, ?_⟩
      rw [h3]
      refine ⟨(pure_cons r tb t2 put x f false l a h2 _).2 hd.maps, hd.sound, fun _ _ _ => hlast, ?_⟩
      intro e he hb
      rcases List.mem_cons.1 he with rfl | he
      · cases hb
      · exact hd.second e he hb
    | true =>
      obtain ⟨t2, hd⟩ := loop_second le r put q q2 tb _ w hs
        (fun e he => by
          rcases List.mem_cons.1 he with rfl | he
          · rfl
          · exact hm1 e he rfl) (.inr hq2) he
      exact ⟨tb, t2, hd⟩

/-- The maps made before an error are those of a run over the first messages only; the tables are the same but for the
last lookup. -/
theorem loop_prefix (q q2 : Lookup k) (l : List (γ × Field n m × Bool)) (w : Store (Table k)) :
    ∃ o', r.mapLoop le q q2 put w (l.take (r.mapLoop le q q2 put w l).maps.length) = o' ∧
      o'.maps = (r.mapLoop le q q2 put w l).maps ∧ o'.error = none ∧
      ((r.mapLoop le q q2 put w l).store = o'.store ∨
        ∃ p, (r.mapLoop le q q2 put w l).store = (o'.store.table le p).2) := by
  induction l generalizing w with
  | nil => exact ⟨_, rfl, rfl, rfl, .inl rfl⟩
  | cons e l ih =>
    obtain ⟨x, f, b⟩ := e
    cases ht : w.table le (if b then q2 else q) with
    | mk y w' =>
      have hw' : w' = (w.table le (if b then q2 else q)).2 := by rw [ht]
      cases y with
      | error e =>
        have : r.mapLoop le q q2 put w ((x, f, b) :: l) = ⟨[], some e, w'⟩ := by
          unfold RunIn.mapLoop; rw [ht]
        rw [this]
        exact ⟨_, rfl, rfl, rfl, .inr ⟨_, hw'⟩⟩
      | ok t =>
        cases hr : r.renderBy t b f with
        | error e =>
          have : r.mapLoop le q q2 put w ((x, f, b) :: l) = ⟨[], some e, w'⟩ := by
            unfold RunIn.mapLoop; rw [ht]; dsimp only; rw [hr]
          rw [this]
          exact ⟨_, rfl, rfl, rfl, .inr ⟨_, hw'⟩⟩
        | ok a =>
          have key : ∀ l', r.mapLoop le q q2 put w ((x, f, b) :: l') =
              ⟨put x a :: (r.mapLoop le q q2 put w' l').maps, (r.mapLoop le q q2 put w' l').error,
                (r.mapLoop le q q2 put w' l').store⟩ := by
            intro l'
            conv_lhs => unfold RunIn.mapLoop
            rw [ht]; dsimp only; rw [hr]
          obtain ⟨o', i0, i1, i2, i3⟩ := ih w'
          rw [key l]
          dsimp only
          rw [List.length_cons, List.take_succ_cons, key, i0]
          exact ⟨_, rfl, by dsimp only; rw [i1], i2, i3⟩

/-- A run over the first messages makes the first maps. -/
theorem loop_take (q q2 : Lookup k) (l : List (γ × Field n m × Bool)) (w : Store (Table k)) (j : Nat) :
    (r.mapLoop le q q2 put w (l.take j)).maps <+: (r.mapLoop le q q2 put w l).maps := by
  induction l generalizing w j with
  | nil => rw [List.take_nil]
  | cons e l ih =>
    obtain ⟨x, f, b⟩ := e
    cases j with
    | zero => exact List.nil_prefix
    | succ j =>
      rw [List.take_succ_cons]
      unfold RunIn.mapLoop
      cases w.table le (if b then q2 else q) with
      | mk y w' =>
        cases y with
        | error e => exact List.prefix_rfl
        | ok t =>
          dsimp only
          cases r.renderBy t b f with
          | error e => exact List.prefix_rfl
          | ok a => exact List.prefix_cons_inj _ |>.2 (ih w' j)

end

/-! ## Whole runs -/

theorem gridLoop_mono {α : Type} (change : Option Step) (l : List (Step × α)) (b : Bool) :
    (∀ e ∈ gridLoop change b l, b = true → e.2.2 = true) ∧
    (gridLoop change b l).Pairwise fun x y => x.2.2 = true → y.2.2 = true := by
  induction l generalizing b with
  | nil => exact ⟨(by intro e h; cases h), List.Pairwise.nil⟩
  | cons p l ih =>
    obtain ⟨t, v⟩ := p
    rw [gridLoop]
    obtain ⟨i1, i2⟩ := ih (b || isChange change t)
    refine ⟨?_, List.pairwise_cons.2 ⟨fun e he hb => i1 e he hb, i2⟩⟩
    intro e he hb
    rcases List.mem_cons.1 he with rfl | he
    · dsimp only
      rw [hb]
      rfl
    · exact i1 e he (by rw [hb]; rfl)

/-- The maps to write: name, field and whether it is on the second grid. -/
def pcrJobs (r : RunIn n m k) (values : Dict Step (Field n m)) (change : Option Step) :
    List (Str × Field n m × Bool) :=
  ((gridLoop change false values).zipIdx 1).map fun p => (pcrName r.namePrefix r.fmap r.ext p.2, p.1.2.1, p.1.2.2)

theorem pairwise_zipIdx {α : Type} {R : α → α → Prop} {l : List α} (h : l.Pairwise R) (i : Nat) :
    (l.zipIdx i).Pairwise fun x y => R x.1 y.1 := by
  have : ((l.zipIdx i).map Prod.fst).Pairwise R := by rw [List.zipIdx_map_fst]; exact h
  exact List.pairwise_map.1 this

theorem pcrJobs_mono (r : RunIn n m k) (values : Dict Step (Field n m)) (change : Option Step) :
    Monotone2 (pcrJobs r values change) := by
  unfold Monotone2 pcrJobs
  rw [List.pairwise_map]
  exact pairwise_zipIdx (gridLoop_mono change values false).2 1

theorem renderBy_eq (r : RunIn n m k) (t t2 : Table k) (b : Bool) (f : Field n m) :
    r.renderBy (if b then t2 else t) b f = ({ r with table := t, table2 := t2 } : RunIn n m k).render b f := by
  cases b <;> cases f <;> rfl

theorem pcraster_pure (ne : NumExpr) (r : RunIn n m k) (t t2 : Table k) (values : Dict Step (Field n m))
    (change : Option Step) (h : r.fields ne = .ok (values, change)) :
    ({ r with table := t, table2 := t2 } : RunIn n m k).pcraster ne =
      pureMaps r t t2 (fun name a => (name, pcrWrite r.mask r.mvClone a)) (pcrJobs r values change) := by
  have h' : ({ r with table := t, table2 := t2 } : RunIn n m k).fields ne = .ok (values, change) := h
  unfold RunIn.pcraster pureMaps pcrJobs writePcraster
  rw [h']
  dsimp only
  generalize (gridLoop change false values).zipIdx 1 = l
  induction l with
  | nil => rfl
  | cons p l ih =>
    rw [List.map_cons, List.map_cons, List.mapM_cons, List.mapM_cons, ih, renderBy_eq]
    dsimp only
    cases ({ r with table := t, table2 := t2 } : RunIn n m k).render p.1.2.2 p.1.2.1 <;> rfl

theorem pcrasterIn_eq (le : Str → Str → Bool) (ne : NumExpr) (w : Store (Table k)) (q q2 : Lookup k) (r : RunIn n m k)
    (values : Dict Step (Field n m)) (change : Option Step) (h : r.fields ne = .ok (values, change)) :
    r.pcrasterIn le ne w q q2 =
      r.mapLoop le q q2 (fun name a => (name, pcrWrite r.mask r.mvClone a)) w (pcrJobs r values change) := by
  unfold RunIn.pcrasterIn
  rw [h]
  rfl

theorem settled_after (le : Str → Str → Bool) (global template : Dict Str TblEntry) (hg : NpyNames global)
    (ht : NpyNames template) {w : Store (Table k)} (hs : Sound w) {q q' : Lookup k} {t : Table k} (h : Settled w q t)
    (hid : q'.run.id = q.run.id) (hdir : q'.run.userDir = q.run.userDir) (l : List (Act (Table k))) :
    Settled (after le global template w l) q' t := by
  obtain ⟨d, f, h1, h2, h3, h4⟩ := h
  refine ⟨d, f, h1, by rw [hdir]; exact h2, h3, ?_⟩
  rw [hid]
  exact registered_after le global template hg ht h3 l w h4 hs.cache hs.names

/-- The facts used below: the maps made so far, with one table for each grid, settled in the state left. -/
theorem run_done (le : Str → Str → Bool) (ne : NumExpr) (r : RunIn n m k) (q q2 : Lookup k) (w : Store (Table k))
    (hs : Sound w) (hq1 : OwnTable w q) (hq2 : OwnTable w q2) (hq : OwnTable (w.table le q).2 q2)
    (values : Dict Step (Field n m)) (change : Option Step) (hf : r.fields ne = .ok (values, change))
    (he : (r.pcrasterIn le ne w q q2).error = none) :
    ∃ t t2, Done r (fun name a => (name, pcrWrite r.mask r.mvClone a)) q q2 t t2 (pcrJobs r values change)
      (r.pcrasterIn le ne w q q2) := by
  rw [pcrasterIn_eq le ne w q q2 r values change hf] at he ⊢
  by_cases hne : pcrJobs r values change = []
  · rw [hne] at he ⊢
    exact ⟨.gribNearest [], .gribNearest [], rfl, hs, (by intro e h; cases h), (by intro e h; cases h)⟩
  · exact loop_done le r _ q q2 _ w hs (pcrJobs_mono r values change) hne hq1 hq2 hq he

/-- **C131.** After any history of runs and restarts, let a run end without error whose tables are in the user's folder or
are created there. All its maps are made with one table for each grid (so that the theorems about runs with known tables
apply). And after any further history of runs and restarts the same run, whether it may create tables or not, and
whatever a new table would be, writes the same files again, and changes neither tables nor registry. -/
theorem run_repeated (le : Str → Str → Bool) (global template : Dict Str TblEntry) (hg : NpyNames global)
    (ht : NpyNames template) (hu : (Dict.keys template).Nodup) (w0 : Store (Table k)) (h0 : w0.cache = [])
    (hn0 : NamesOK w0) (hd0 : Distinct w0) (h1 h2 : List (Act (Table k))) (w : Store (Table k))
    (hw : w = after le global template w0 h1) (ne : NumExpr) (r : RunIn n m k) (q q2 : Lookup k)
    (hq1 : OwnTable w q) (hq2 : OwnTable w q2) (hq : OwnTable (w.table le q).2 q2)
    (o : Outcome k (Str × (Fin k → Num))) (ho : o = r.pcrasterIn le ne w q q2) (he : o.error = none)
    (q' q2' : Lookup k) (hid : q'.run.id = q.run.id) (hdir : q'.run.userDir = q.run.userDir)
    (hid2 : q2'.run.id = q2.run.id) (hdir2 : q2'.run.userDir = q2.run.userDir)
    (w' : Store (Table k)) (hw' : w' = after le global template o.store h2)
    (o' : Outcome k (Str × (Fin k → Num))) (ho' : o' = r.pcrasterIn le ne w' q' q2') :
    (∃ t t2, ({ r with table := t, table2 := t2 } : RunIn n m k).pcraster ne = .ok o.maps) ∧
    o'.maps = o.maps ∧ o'.error = none ∧ o'.store.files = w'.files ∧ o'.store.conf = w'.conf := by
  have hs0 : Sound w0 := ⟨(by intro p t hp; rw [h0] at hp; cases hp), hn0, hd0⟩
  have hs : Sound w := by rw [hw]; exact sound_after le global template hg ht hu hs0 h1
  cases hf : r.fields ne with
  | error e =>
    rw [ho] at he
    unfold RunIn.pcrasterIn at he
    rw [hf] at he
    cases he
  | ok vc =>
    obtain ⟨values, change⟩ := vc
    rw [ho] at he
    obtain ⟨t, t2, hd⟩ := run_done le ne r q q2 w hs hq1 hq2 hq values change hf he
    rw [← ho] at hd
    refine ⟨⟨t, t2, ?_⟩, ?_⟩
    · rw [pcraster_pure ne r t t2 values change hf]
      exact hd.maps
    · have hs' : Sound w' := by rw [hw']; exact sound_after le global template hg ht hu hd.sound h2
      rw [pcrasterIn_eq le ne w' q' q2' r values change hf] at ho'
      obtain ⟨-, i2, i3, i4, -⟩ := loop_settled le r (fun name a => (name, pcrWrite r.mask r.mvClone a)) q' q2' t t2
        (pcrJobs r values change) w' hs'
        (fun e hm hb => by rw [hw']; exact settled_after le global template hg ht hd.sound (hd.first e hm hb) hid hdir h2)
        (fun e hm hb => by
          rw [hw']; exact settled_after le global template hg ht hd.sound (hd.second e hm hb) hid2 hdir2 h2)
      rw [← ho'] at i2 i3 i4
      obtain ⟨j1, j2⟩ := i2 _ hd.maps
      exact ⟨j1, j2, i3, i4⟩

/-- **C132.** What a PCRaster run has written when it ends with an error: after any further history of runs and
restarts, the files written by the same run begin with these. (If that run ends without error, `run_repeated` says
what they hold.) -/
theorem failed_run (le : Str → Str → Bool) (global template : Dict Str TblEntry) (hg : NpyNames global)
    (ht : NpyNames template) (hu : (Dict.keys template).Nodup) (w0 : Store (Table k)) (h0 : w0.cache = [])
    (hn0 : NamesOK w0) (hd0 : Distinct w0) (h1 h2 : List (Act (Table k))) (w : Store (Table k))
    (hw : w = after le global template w0 h1) (ne : NumExpr) (r : RunIn n m k) (q q2 : Lookup k)
    (hq1 : OwnTable w q) (hq2 : OwnTable w q2) (hq : OwnTable (w.table le q).2 q2)
    (o : Outcome k (Str × (Fin k → Num))) (ho : o = r.pcrasterIn le ne w q q2)
    (q' q2' : Lookup k) (hid : q'.run.id = q.run.id) (hdir : q'.run.userDir = q.run.userDir)
    (hid2 : q2'.run.id = q2.run.id) (hdir2 : q2'.run.userDir = q2.run.userDir)
    (w' : Store (Table k)) (hw' : w' = after le global template o.store h2)
    (o' : Outcome k (Str × (Fin k → Num))) (ho' : o' = r.pcrasterIn le ne w' q' q2') :
    o.maps <+: o'.maps := by
  have hs0 : Sound w0 := ⟨(by intro p t hp; rw [h0] at hp; cases hp), hn0, hd0⟩
  have hs : Sound w := by rw [hw]; exact sound_after le global template hg ht hu hs0 h1
  cases hf : r.fields ne with
  | error e =>
    have : o.maps = [] := by
      rw [ho]
      unfold RunIn.pcrasterIn
      rw [hf]
    rw [this]
    exact List.nil_prefix
  | ok vc =>
    obtain ⟨values, change⟩ := vc
    rw [pcrasterIn_eq le ne w q q2 r values change hf] at ho
    generalize hput : (fun (name : Str) (a : Arr k) => (name, pcrWrite r.mask r.mvClone a)) = put at ho
    obtain ⟨o1, p1, p2, p3, p4⟩ := loop_prefix le r put q q2 (pcrJobs r values change) w
    rw [← ho] at p1 p2 p4
    by_cases hne : (pcrJobs r values change).take o.maps.length = []
    · rw [hne] at p1
      rw [← p2, ← p1]
      exact List.nil_prefix
    · have hmono : Monotone2 ((pcrJobs r values change).take o.maps.length) :=
        (pcrJobs_mono r values change).sublist (List.take_sublist _ _)
      obtain ⟨t, t2, hd⟩ := loop_done le r put q q2 _ w hs hmono hne hq1 hq2 hq (by rw [p1]; exact p3)
      rw [p1] at hd
      -- the tables are still there in the later state
      have hso : Sound o.store := by
        rcases p4 with e | ⟨p, e⟩
        · rw [e]; exact hd.sound
        · rw [e]; exact sound_table le hd.sound p
      have hsett : ∀ p t, Settled o1.store p t → Settled o.store p t := by
        intro p t h
        rcases p4 with e | ⟨p', e⟩
        · rw [e]; exact h
        · rw [e]; exact settled_table le hd.sound h
      have hs' : Sound w' := by rw [hw']; exact sound_after le global template hg ht hu hso h2
      obtain ⟨-, i2, -⟩ := loop_settled le r put q' q2' t t2 ((pcrJobs r values change).take o.maps.length) w' hs'
        (fun e hm hb => by
          rw [hw']; exact settled_after le global template hg ht hso (hsett _ _ (hd.first e hm hb)) hid hdir h2)
        (fun e hm hb => by
          rw [hw']; exact settled_after le global template hg ht hso (hsett _ _ (hd.second e hm hb)) hid2 hdir2 h2)
      obtain ⟨j1, -⟩ := i2 _ hd.maps
      rw [ho', pcrasterIn_eq le ne w' q' q2' r values change hf, hput, ← p2, ← j1]
      exact loop_take le r put q' q2' _ w' _

/-- **C132.** The maps a run has written when it ends, with or without error, are complete: there is one table for each
grid such that each of them is the map of that number with these tables. -/
theorem failed_maps (le : Str → Str → Bool) (global template : Dict Str TblEntry) (hg : NpyNames global)
    (ht : NpyNames template) (hu : (Dict.keys template).Nodup) (w0 : Store (Table k)) (h0 : w0.cache = [])
    (hn0 : NamesOK w0) (hd0 : Distinct w0) (h1 : List (Act (Table k))) (w : Store (Table k))
    (hw : w = after le global template w0 h1) (ne : NumExpr) (r : RunIn n m k) (q q2 : Lookup k)
    (hq1 : OwnTable w q) (hq2 : OwnTable w q2) (hq : OwnTable (w.table le q).2 q2)
    (values : Dict Step (Field n m)) (change : Option Step) (hf : r.fields ne = .ok (values, change))
    (o : Outcome k (Str × (Fin k → Num))) (ho : o = r.pcrasterIn le ne w q q2) :
    ∃ t t2, ∀ (i : Nat) name cells, o.maps[i]? = some (name, cells) →
      ∃ s f b a, (gridLoop change false values)[i]? = some (s, f, b) ∧
        ({ r with table := t, table2 := t2 } : RunIn n m k).render b f = .ok a ∧
        name = pcrName r.namePrefix r.fmap r.ext (i + 1) ∧ cells = pcrWrite r.mask r.mvClone a := by
  have hs0 : Sound w0 := ⟨(by intro p t hp; rw [h0] at hp; cases hp), hn0, hd0⟩
  have hs : Sound w := by rw [hw]; exact sound_after le global template hg ht hu hs0 h1
  rw [pcrasterIn_eq le ne w q q2 r values change hf] at ho
  obtain ⟨o1, p1, p2, p3, -⟩ := loop_prefix le r (fun name a => (name, pcrWrite r.mask r.mvClone a)) q q2
    (pcrJobs r values change) w
  rw [← ho] at p1 p2
  have hd : ∃ t t2, pureMaps r t t2 (fun name a => (name, pcrWrite r.mask r.mvClone a))
      ((pcrJobs r values change).take o.maps.length) = .ok o.maps := by
    by_cases hne : (pcrJobs r values change).take o.maps.length = []
    · rw [hne] at p1 ⊢
      rw [← p2, ← p1]
      exact ⟨.gribNearest [], .gribNearest [], rfl⟩
    · have hmono : Monotone2 ((pcrJobs r values change).take o.maps.length) :=
        (pcrJobs_mono r values change).sublist (List.take_sublist _ _)
      obtain ⟨t, t2, hd⟩ := loop_done le r _ q q2 _ w hs hmono hne hq1 hq2 hq (by rw [p1]; exact p3)
      have hm := hd.maps
      rw [p1, p2] at hm
      exact ⟨t, t2, hm⟩
  obtain ⟨t, t2, hd⟩ := hd
  refine ⟨t, t2, fun i name cells hi => ?_⟩
  obtain ⟨hl, hget⟩ := mapM_get _ _ _ hd
  have hil : i < o.maps.length := (List.getElem?_eq_some_iff.1 hi).1
  have hil' : i < ((pcrJobs r values change).take o.maps.length).length := by rw [← hl]; exact hil
  have hj := List.getElem?_eq_getElem hil'
  have hrun := hget i _ _ hj hi
  generalize ((pcrJobs r values change).take o.maps.length)[i] = x at hj hrun
  rw [List.getElem?_take_of_lt hil] at hj
  unfold pcrJobs at hj
  rw [List.getElem?_map, List.getElem?_zipIdx] at hj
  cases hg' : (gridLoop change false values)[i]? with
  | none => rw [hg'] at hj; cases hj
  | some e =>
    obtain ⟨s, f, b⟩ := e
    rw [hg'] at hj
    have hj := Option.some.inj hj
    rw [← hj] at hrun
    dsimp only at hrun
    rw [renderBy_eq] at hrun
    cases hr : ({ r with table := t, table2 := t2 } : RunIn n m k).render b f with
    | error e => rw [hr] at hrun; cases hrun
    | ok a =>
      rw [hr] at hrun
      have hrun := Except.ok.inj hrun
      refine ⟨s, f, b, a, rfl, hr, ?_, (congrArg Prod.snd hrun).symm⟩
      have := (congrArg Prod.fst hrun).symm
      dsimp only at this
      rw [this, add_comm 1 i]
      push_cast
      rfl

/-- **C132.** A netCDF run gives its writer all maps or none: none if it ends with an error, else one for each map of the
run, in order. -/
theorem netcdf_all_or_none (le : Str → Str → Bool) (ne : NumExpr) (w : Store (Table k)) (q q2 : Lookup k)
    (r : RunIn n m k) (o : Outcome k (Int × (Fin k → Num))) (ho : o = r.netcdfIn le ne w q q2) :
    (o.error ≠ none → o.maps = []) ∧
    (o.error = none → ∃ values change, r.fields ne = .ok (values, change) ∧
      o.maps.map (·.1) = values.map fun e => e.1.endStep) := by
  unfold RunIn.netcdfIn at ho
  cases hf : r.fields ne with
  | error e =>
    rw [hf] at ho
    rw [ho]
    exact ⟨fun _ => rfl, by intro h; cases h⟩
  | ok vc =>
    obtain ⟨values, change⟩ := vc
    rw [hf] at ho
    dsimp only at ho
    have key : ∀ (l : List (Int × Field n m × Bool)) (w : Store (Table k)),
        (r.mapLoop le q q2 (fun t a => (t, ncField r.mvOut a)) w l).error = none →
        (r.mapLoop le q q2 (fun t a => (t, ncField r.mvOut a)) w l).maps.map (·.1) = l.map (·.1) := by
      intro l
      induction l with
      | nil => intro w _; rfl
      | cons e l ih =>
        obtain ⟨x, f, b⟩ := e
        intro w he
        obtain ⟨t, a, -, -, h3, h4⟩ := loop_cons le r _ he
        rw [h3]
        dsimp only
        rw [List.map_cons, List.map_cons, ih _ h4]
    generalize hl : (gridLoop change false values).map (fun p => (p.1.endStep, p.2.1, p.2.2)) = l at ho
    cases he : (r.mapLoop le q q2 (fun t a => (t, ncField r.mvOut a)) w l).error with
    | some e =>
      rw [he] at ho
      rw [ho]
      exact ⟨fun _ => rfl, by intro h; cases h⟩
    | none =>
      rw [he] at ho
      dsimp only at ho
      rw [ho]
      refine ⟨fun h => absurd he h, fun _ => ⟨values, change, rfl, ?_⟩⟩
      rw [key l w he, ← hl, List.map_map]
      have := congrArg (List.map Step.endStep) (gridLoop_keys change values false)
      rw [List.map_map, List.map_map] at this
      exact this

/-- Maps made with table `t`, which the first lookup gives. -/
theorem first_loop {β γ : Type} (le : Str → Str → Bool) (r : RunIn n m k) (put : γ → Arr k → β) (q : Lookup k)
    (w : Store (Table k)) (hs : Sound w) (t : Table k) (hlook : (w.table le q).1 = .ok t) (hown : OwnTable w q)
    (l : List (γ × Field n m × Bool)) (o : List β) (hrun : pureMaps r t t put l = .ok o) :
    (r.mapLoop le q q put w l).maps = o ∧ (r.mapLoop le q q put w l).error = none ∧
      Done r put q q t t l (r.mapLoop le q q put w l) := by
  have hset := own_lookup le hs hown hlook
  cases l with
  | nil =>
    have := Except.ok.inj hrun
    rw [← this]
    exact ⟨rfl, rfl, rfl, hs, (by intro e h; cases h), (by intro e h; cases h)⟩
  | cons e l =>
    obtain ⟨x, f, b⟩ := e
    have hrun' := hrun
    unfold pureMaps at hrun'
    rw [List.mapM_cons] at hrun'
    obtain ⟨y, hy, hrun'⟩ := bind_ok_iff.1 hrun'
    obtain ⟨o', ho', hrun'⟩ := bind_ok_iff.1 hrun'
    have hrun' := Except.ok.inj hrun'
    dsimp only at hy
    rw [ite_self] at hy
    cases hr : r.renderBy t b f with
    | error e => rw [hr] at hy; cases hy
    | ok a =>
      rw [hr] at hy
      have hy := Except.ok.inj hy
      obtain ⟨-, i2, i3, i4, i5⟩ := loop_settled le r put q q t t l
        (w.table le q).2 (sound_table le hs q) (fun _ _ _ => hset) (fun _ _ _ => hset)
      obtain ⟨j1, j2⟩ := i2 o' ho'
      have he : r.mapLoop le q q put w ((x, f, b) :: l) =
          ⟨put x a :: (r.mapLoop le q q put (w.table le q).2 l).maps, (r.mapLoop le q q put (w.table le q).2 l).error,
            (r.mapLoop le q q put (w.table le q).2 l).store⟩ := by
        conv_lhs => unfold RunIn.mapLoop
        rw [ite_self]
        have hpair : w.table le q = (.ok t, (w.table le q).2) := Prod.ext hlook rfl
        rw [hpair]
        dsimp only
        rw [hr]
      have ho : put x a :: (r.mapLoop le q q put (w.table le q).2 l).maps = o := by rw [j1, ← hrun', ← hy]
      rw [he]
      dsimp only
      refine ⟨ho, j2, ?_, i5, fun _ _ _ => settled_same hset i3 i4, fun _ _ _ => settled_same hset i3 i4⟩
      dsimp only
      rw [ho]
      exact hrun

/-- A run whose lookup gives table `t` writes the maps of `t`. -/
theorem first_maps (le : Str → Str → Bool) (ne : NumExpr) (r : RunIn n m k) (q : Lookup k) (w : Store (Table k))
    (hs : Sound w) (t : Table k) (hlook : (w.table le q).1 = .ok t) (hown : OwnTable w q)
    (files : List (Str × (Fin k → Num)))
    (hrun : ({ r with table := t, table2 := t } : RunIn n m k).pcraster ne = .ok files) :
    (r.pcrasterIn le ne w q q).maps = files ∧ (r.pcrasterIn le ne w q q).error = none := by
  cases hf : r.fields ne with
  | error e =>
    have hf' : ({ r with table := t, table2 := t } : RunIn n m k).fields ne = .error e := hf
    unfold RunIn.pcraster at hrun
    rw [hf'] at hrun
    cases hrun
  | ok vc =>
    obtain ⟨values, change⟩ := vc
    rw [pcraster_pure ne r t t values change hf] at hrun
    rw [pcrasterIn_eq le ne w q q r values change hf]
    obtain ⟨h1, h2, -⟩ := first_loop le r _ q w hs t hlook hown _ _ hrun
    exact ⟨h1, h2⟩

/-- **C131.** The first run on a grid: if no table is registered for it and the run may create one in the user's folder, a
run with a search-tree method writes the maps of the table it computes. -/
theorem first_run (le : Str → Str → Bool) (ne : NumExpr) (r : RunIn n m k) (q : Lookup k) (w : Store (Table k))
    (hc0 : CacheOK w) (hn : NamesOK w) (hd0 : Distinct w) (hsc : q.scipy = true) (t : Table k) (hb : q.build = .ok t)
    (hid : q.run.id ∉ Dict.keys w.conf.vars) (hcr : q.run.create = true) (hwr : q.run.write = .ok ()) (d : Str)
    (hd : q.run.userDir = some d) (hdne : d ≠ [])
    (hzz : ∀ p ∈ Dict.keys w.files, ∀ s : Str, p.2 ≠ s ++ ".gz".toList ++ ".gz".toList)
    (files : List (Str × (Fin k → Num)))
    (hrun : ({ r with table := t, table2 := t } : RunIn n m k).pcraster ne = .ok files) :
    (r.pcrasterIn le ne w q q).maps = files ∧ (r.pcrasterIn le ne w q q).error = none := by
  have hs : Sound w := ⟨hc0, hn, hd0⟩
  obtain ⟨i, hp, hx, hst⟩ := scipy_new le w q.run d t hid hcr hwr hd hzz
  have hlook : (w.table le q).1 = .ok t := by
    unfold Store.table
    rw [if_pos hsc, hb, hst]
  have hown : OwnTable w q := ⟨d, hdne, hd, .inl fun p hp' => by
    rw [hp] at hp'
    rw [← Except.ok.inj hp']
    exact hx⟩
  exact first_maps le ne r q w hs t hlook hown files hrun

namespace Demo

/-- The lookup of the table of `runAcc`, with the folders and names of `tblRun`. -/
def runLookup : Lookup 3 := ⟨true, false, tblRun "a" "t" true, .ok runAcc.table⟩

/-- No tables yet. -/
def noTables : Store (Table 3) := ⟨⟨[], [], none⟩, [], []⟩

end Demo

/-- Non-vacuity: on an empty store `Demo.runAcc` creates its table and writes the two maps shown beside the theorem
`accumulation_run`; the hypotheses of `run_repeated` hold for it, so that after any history it writes them again. -/
example (le : Str → Str → Bool) (h : List (Act (Table 3))) : ∃ files,
    ({ Demo.runAcc with table2 := Demo.runAcc.table } : RunIn 2 1 3).pcraster Demo.runNe = .ok files ∧ files.length = 2 ∧
    (Demo.runAcc.pcrasterIn le Demo.runNe Demo.noTables Demo.runLookup Demo.runLookup).maps = files ∧
    (Demo.runAcc.pcrasterIn le Demo.runNe
      (after le [] [] (Demo.runAcc.pcrasterIn le Demo.runNe Demo.noTables Demo.runLookup Demo.runLookup).store h)
      Demo.runLookup Demo.runLookup).maps = files := by
  have hn : NamesOK Demo.noTables := ⟨npyNames_nil, npyNames_nil, by intro u hu; cases hu⟩
  have hc : CacheOK Demo.noTables := by intro p t hp; cases hp
  have hd : Distinct Demo.noTables := ⟨List.nodup_nil, by intro u hu; cases hu⟩
  have hs : Sound Demo.noTables := ⟨hc, hn, hd⟩
  have hid : Demo.runLookup.run.id ∉ Dict.keys Demo.noTables.conf.vars := by intro h; cases h
  have hrun : ∃ files, ({ Demo.runAcc with table2 := Demo.runAcc.table } : RunIn 2 1 3).pcraster Demo.runNe = .ok files ∧
      files.length = 2 := by
    refine ⟨[("pr000000.001".toList, fun c => if c = 0 then .fin 5 else if c = 1 then .fin (-1) else .fin (-9999)),
      ("pr000000.002".toList, fun c => if c = 0 then .fin 7 else if c = 1 then .fin (-1) else .fin (-9999))], ?_, rfl⟩
    decide +kernel
  obtain ⟨files, hf, hl⟩ := hrun
  obtain ⟨f1, f2⟩ := first_run le Demo.runNe Demo.runAcc Demo.runLookup Demo.noTables hc hn hd rfl Demo.runAcc.table rfl hid
    rfl rfl "/u".toList rfl (by decide) (by intro q hq; cases hq) files hf
  obtain ⟨i, hp, hx, hst⟩ := scipy_new le Demo.noTables Demo.runLookup.run "/u".toList Demo.runAcc.table hid rfl rfl rfl
    (by intro q hq; cases hq)
  have hown : OwnTable Demo.noTables Demo.runLookup := ⟨"/u".toList, by decide, rfl, .inl fun p hp' => by
    rw [hp] at hp'
    rw [← Except.ok.inj hp']
    exact hx⟩
  have hlook : (Demo.noTables.table le Demo.runLookup).1 = .ok Demo.runAcc.table := congrArg Prod.fst hst
  obtain ⟨d, f, s1, s2, s3, s4⟩ := own_lookup le hs hown hlook
  refine ⟨files, hf, hl, f1, ?_⟩
  obtain ⟨-, e, -⟩ := run_repeated le [] [] npyNames_nil npyNames_nil List.nodup_nil Demo.noTables rfl hn hd [] h
    Demo.noTables rfl Demo.runNe Demo.runAcc Demo.runLookup Demo.runLookup hown hown
    ⟨d, s1, s2, .inr ⟨f, _, s3, s4⟩⟩ _ rfl f2 Demo.runLookup Demo.runLookup rfl rfl rfl rfl _ rfl _ rfl
  rw [e, f1]

end PyG2P
