import Verif.Props.UserConf
import Verif.Props.Tables
import Verif.Props.ConfigOps

/-! # C41, C109 — braces in path settings, folders that cannot be written -/

namespace PyG2P
open Spec

/-! ## C41: settings with braces of any kind -/

namespace Spec

/-- The text contains `{NAME}`, a name of letters and underscores in braces. -/
def ContainsVar (s : Str) : Prop :=
  ∃ a n b : Str, s = a ++ '{' :: (n ++ '}' :: b) ∧ n ≠ [] ∧ ∀ c ∈ n, c.isAlpha = true ∨ c = '_'

/-- Parts of a setting: text without braces, a variable, a doubled opening or closing brace. -/
inductive Piece where
  | lit (s : Str)
  | var (name : Str)
  | opening
  | closing

/-- Well formed: see `Seg.Ok`. -/
def Piece.Ok : Piece → Prop
  | .lit s => '{' ∉ s ∧ '}' ∉ s
  | .var n => n ≠ [] ∧ ∀ c ∈ n, c.isAlpha = true ∨ c = '_'
  | _ => True

/-- The text written. -/
def Piece.text : Piece → Str
  | .lit s => s
  | .var n => '{' :: (n ++ ['}'])
  | .opening => ['{', '{']
  | .closing => ['}', '}']

/-- The text meant. -/
def Piece.subst (value : Str → Str) : Piece → Str
  | .lit s => s
  | .var n => value n
  | .opening => ['{']
  | .closing => ['}']

end Spec

theorem varTail_iff (s : Str) : varTail s = true ↔
    ∃ n b : Str, s = n ++ '}' :: b ∧ ∀ c ∈ n, isVarChar c = true := by
  induction s with
  | nil =>
    constructor
    · intro h; cases h
    · rintro ⟨n, b, h, -⟩
      cases n <;> cases h
  | cons c s ih =>
    constructor
    · intro h
      rw [varTail] at h
      by_cases hc : c = '}'
      · exact ⟨[], s, by rw [hc]; rfl, fun c hc => by cases hc⟩
      · rw [if_neg hc] at h
        by_cases hv : isVarChar c = true
        · rw [if_pos hv] at h
          obtain ⟨n, b, e, hn⟩ := ih.1 h
          refine ⟨c :: n, b, by rw [e]; rfl, ?_⟩
          intro x hx
          rcases List.mem_cons.1 hx with rfl | hx
          · exact hv
          · exact hn x hx
        · rw [if_neg hv] at h
          cases h
    · rintro ⟨n, b, e, hn⟩
      rw [e]
      exact varTail_append hn

theorem hasVar_iff (s : Str) : hasVar s = true ↔ ContainsVar s := by
  induction s with
  | nil =>
    constructor
    · intro h; cases h
    · rintro ⟨a, n, b, h, -⟩
      cases a <;> cases h
  | cons c s ih =>
    rw [hasVar, Bool.or_eq_true, Bool.and_eq_true, beq_iff_eq]
    constructor
    · rintro (⟨hc, hh⟩ | h)
      · cases s with
        | nil => cases hh
        | cons d r =>
          rw [varHead, Bool.and_eq_true] at hh
          obtain ⟨n, b, e, hn⟩ := (varTail_iff r).1 hh.2
          refine ⟨[], d :: n, b, by rw [hc, e]; rfl, List.cons_ne_nil _ _, ?_⟩
          intro x hx
          rw [← isVarChar_iff]
          rcases List.mem_cons.1 hx with rfl | hx
          · exact hh.1
          · exact hn x hx
      · obtain ⟨a, n, b, e, h0, hn⟩ := ih.1 h
        exact ⟨c :: a, n, b, by rw [e]; rfl, h0, hn⟩
    · rintro ⟨a, n, b, e, h0, hn⟩
      cases a with
      | nil =>
        left
        injection e with e1 e2
        refine ⟨e1, ?_⟩
        rw [e2]
        cases n with
        | nil => exact absurd rfl h0
        | cons d n =>
          rw [List.cons_append, varHead, Bool.and_eq_true]
          exact ⟨(isVarChar_iff d).2 (hn d List.mem_cons_self),
            varTail_append fun x hx => (isVarChar_iff x).2 (hn x (List.mem_cons_of_mem _ hx))⟩
      | cons x a =>
        right
        injection e with e1 e2
        exact ih.2 ⟨a, n, b, e2, h0, hn⟩

theorem format_opening (sp : Str → Py Str) (vars : Dict Str Str) (s : Str) :
    format sp vars none ('{' :: '{' :: s) = (format sp vars none s).map ('{' :: ·) := by
  rw [format]
  rfl

theorem format_closing (sp : Str → Py Str) (vars : Dict Str Str) (s : Str) :
    format sp vars none ('}' :: '}' :: s) = (format sp vars none s).map ('}' :: ·) := by
  rw [format]
  rfl

/-- A text after well-formed pieces. -/
theorem format_pieces (sp : Str → Py Str) (vars : Dict Str Str) (ps : List Piece) (hok : ∀ g ∈ ps, g.Ok)
    (value : Str → Str) (hdef : ∀ n, Piece.var n ∈ ps → Dict.get? vars n = some (value n)) (s : Str) :
    format sp vars none (ps.flatMap Piece.text ++ s) =
      (format sp vars none s).map (ps.flatMap (Piece.subst value) ++ ·) := by
  induction ps with
  | nil =>
    rw [List.flatMap_nil, List.nil_append]
    cases format sp vars none s <;> rfl
  | cons g ps ih =>
    have ih := ih (fun g hg => hok g (by simp [hg])) (fun n hn => hdef n (by simp [hn]))
    rw [List.flatMap_cons, List.flatMap_cons, List.append_assoc]
    cases g with
    | lit l =>
      have := hok (.lit l) (by simp)
      rw [Piece.text, format_lit sp vars this.1 this.2, ih]
      cases format sp vars none s with
      | error e => rfl
      | ok r =>
        simp only [Except.map, Piece.subst, List.append_assoc]
    | var n =>
      have ok := hok (.var n) (by simp)
      have h1 : ∀ c ∈ n, isVarChar c = true := fun c hc => (isVarChar_iff c).2 (ok.2 c hc)
      rw [Piece.text, List.cons_append, List.append_assoc, List.singleton_append, format_var sp vars ok.1 h1, ih,
        Dict.getE_of_get? (hdef n (by simp))]
      cases format sp vars none s with
      | error e => rfl
      | ok r =>
        simp only [Except.map, Piece.subst, List.append_assoc, ok_bind]
    | opening =>
      rw [Piece.text]
      change format sp vars none ('{' :: '{' :: (ps.flatMap Piece.text ++ s)) = _
      rw [format_opening, ih]
      cases format sp vars none s <;> rfl
    | closing =>
      rw [Piece.text]
      change format sp vars none ('}' :: '}' :: (ps.flatMap Piece.text ++ s)) = _
      rw [format_closing, ih]
      cases format sp vars none s <;> rfl

/-- **C41.** Settings of text, defined variables and doubled braces. A setting without `{NAME}` stays as it is, doubled
braces included; otherwise doubled braces are halved, the variables are replaced, and the setting is refused with
error 8000 exactly when the text that results contains `{NAME}` again (from doubled braces, or from the value of a
variable: values are not replaced again). -/
theorem paths_braces (sp : Str → Py Str) (vars : Dict Str Str) (ps : List Piece) (hok : ∀ g ∈ ps, g.Ok)
    (value : Str → Str) (hdef : ∀ n, Piece.var n ∈ ps → Dict.get? vars n = some (value n)) :
    (¬ ContainsVar (ps.flatMap Piece.text) → interpolateOne sp vars (ps.flatMap Piece.text) = .ok (ps.flatMap Piece.text)) ∧
    (ContainsVar (ps.flatMap Piece.text) →
      (ContainsVar (ps.flatMap (Piece.subst value)) →
        interpolateOne sp vars (ps.flatMap Piece.text) = .error (.app 8000)) ∧
      (¬ ContainsVar (ps.flatMap (Piece.subst value)) →
        interpolateOne sp vars (ps.flatMap Piece.text) = .ok (ps.flatMap (Piece.subst value)))) := by
  have e := format_pieces sp vars ps hok value hdef []
  rw [List.append_nil, format] at e
  simp only [Except.map, List.append_nil] at e
  unfold interpolateOne
  constructor
  · intro h
    rw [if_neg (fun h' => h ((hasVar_iff _).1 h'))]
  · intro h
    rw [if_pos ((hasVar_iff _).2 h), e]
    simp only [ok_bind]
    constructor
    · intro h'
      rw [if_pos ((hasVar_iff _).2 h')]
      rfl
    · intro h'
      rw [if_neg (fun h'' => h' ((hasVar_iff _).1 h''))]

/-- **C41.** Text that is not well formed, in a setting that names a variable: a brace that is never closed and a single
closing brace end in `ValueError`, an empty or numeric name in `IndexError`. -/
theorem paths_malformed (sp : Str → Py Str) (vars : Dict Str Str) (ps : List Piece) (hok : ∀ g ∈ ps, g.Ok)
    (value : Str → Str) (hdef : ∀ n, Piece.var n ∈ ps → Dict.get? vars n = some (value n))
    (rest : Str) (hc : ContainsVar (ps.flatMap Piece.text ++ rest)) :
    (∀ f : Str, rest = '{' :: f → '}' ∉ f → f.head? ≠ some '{' →
      interpolateOne sp vars (ps.flatMap Piece.text ++ rest) = .error .valueError) ∧
    (∀ f : Str, rest = '}' :: f → f.head? ≠ some '}' →
      interpolateOne sp vars (ps.flatMap Piece.text ++ rest) = .error .valueError) ∧
    (∀ n f : Str, rest = '{' :: (n ++ '}' :: f) → (∀ c ∈ n, '0' ≤ c ∧ c ≤ '9') →
      interpolateOne sp vars (ps.flatMap Piece.text ++ rest) = .error .indexError) := by
  have fmt : ∀ e, format sp vars none rest = .error e →
      interpolateOne sp vars (ps.flatMap Piece.text ++ rest) = .error e := by
    intro e he
    unfold interpolateOne
    rw [if_pos ((hasVar_iff _).2 hc), format_pieces sp vars ps hok value hdef, he]
    rfl
  refine ⟨?_, ?_, ?_⟩
  · intro f hf h1 h2
    apply fmt
    rw [hf, format]
    · rw [if_pos rfl]
      have key : ∀ (f acc : Str), '}' ∉ f → format sp vars (some acc) f = .error .valueError := by
        intro f
        induction f with
        | nil => intro acc _; rw [format]
        | cons c f ih =>
          intro acc h
          rw [format, if_neg (fun e => h (by rw [e]; exact List.mem_cons_self))]
          exact ih _ fun hm => h (List.mem_cons_of_mem _ hm)
      exact key f [] h1
    · intro s' _ he
      rw [he] at h2
      exact absurd rfl h2
    · intro s' he
      exact absurd he (by decide)
  · intro f hf h2
    apply fmt
    rw [hf, format]
    · rw [if_neg (by decide), if_pos rfl]
    · intro s' he
      exact absurd he (by decide)
    · intro s' _ he
      rw [he] at h2
      exact absurd rfl h2
  · intro n f hf hn
    apply fmt
    have hb : '}' ∉ n := fun hm => absurd (hn _ hm) (by decide)
    have e := format_field sp vars hb [] f
    rw [List.reverse_nil, List.nil_append] at e
    have hfield : formatField sp vars n = .error .indexError := by
      unfold formatField
      rw [if_neg, if_pos]
      · by_cases h0 : n = []
        · exact Or.inl h0
        · right
          unfold Str.isDigit
          rw [Bool.and_eq_true, List.all_eq_true]
          refine ⟨?_, fun c hc => ?_⟩
          · cases n with
            | nil => exact absurd rfl h0
            | cons c n => rfl
          · unfold Str.isDigitChar
            exact decide_eq_true (hn c hc)
      · rw [List.any_eq_true]
        rintro ⟨c, hc, e⟩
        simp only [Bool.or_eq_true, beq_iff_eq] at e
        rcases e with (((e | e) | e) | e) | e <;> (rw [e] at hc; exact absurd (hn _ hc) (by decide))
    rw [hfield] at e
    rw [hf, format]
    · rw [if_pos rfl, e]
      rfl
    · intro s' _ he
      cases n with
      | nil =>
        injection he with he _
        exact absurd he (by decide)
      | cons c n =>
        injection he with he _
        rw [he] at hn
        exact absurd (hn _ List.mem_cons_self) (by decide)
    · intro s' he
      exact absurd he (by decide)

/-- `{A}/{{x/lat.map` becomes `/d/{x/lat.map`; `{A}/{{B}}` is refused. -/
example : interpolateOne (fun _ => .error .valueError) [("A".toList, "/d".toList)] "{A}/{{x/lat.map".toList =
    .ok "/d/{x/lat.map".toList ∧
    interpolateOne (fun _ => .error .valueError) [("A".toList, "/d".toList)] "{A}/{{B}}".toList = .error (.app 8000) := by
  have hdef : ∀ n, n = "A".toList → Dict.get? [("A".toList, "/d".toList)] n = some "/d".toList := by
    intro n hn
    rw [hn]
    rfl
  constructor
  · refine (((paths_braces (fun _ => .error .valueError) [("A".toList, "/d".toList)]
      [.var "A".toList, .lit "/".toList, .opening, .lit "x/lat.map".toList] ?_ (fun _ => "/d".toList) ?_).2 ?_).2 ?_)
    · intro g hg
      simp only [List.mem_cons, List.not_mem_nil, or_false] at hg
      rcases hg with rfl | rfl | rfl | rfl
      · exact ⟨by decide, by decide⟩
      · exact ⟨by decide, by decide⟩
      · trivial
      · exact ⟨by decide, by decide⟩
    · intro n hn
      refine hdef n ?_
      simp only [List.mem_cons, List.not_mem_nil, or_false, reduceCtorEq, Piece.var.injEq] at hn
      exact hn
    · exact (hasVar_iff _).1 (by decide +kernel)
    · exact fun h => absurd ((hasVar_iff _).2 h) (by decide +kernel)
  · refine (((paths_braces (fun _ => .error .valueError) [("A".toList, "/d".toList)]
      [.var "A".toList, .lit "/".toList, .opening, .lit "B".toList, .closing] ?_ (fun _ => "/d".toList) ?_).2 ?_).1 ?_)
    · intro g hg
      simp only [List.mem_cons, List.not_mem_nil, or_false] at hg
      rcases hg with rfl | rfl | rfl | rfl | rfl
      · exact ⟨by decide, by decide⟩
      · exact ⟨by decide, by decide⟩
      · trivial
      · exact ⟨by decide, by decide⟩
      · trivial
    · intro n hn
      refine hdef n ?_
      simp only [List.mem_cons, List.not_mem_nil, or_false, reduceCtorEq, Piece.var.injEq] at hn
      exact hn
    · exact (hasVar_iff _).1 (by decide +kernel)
    · exact (hasVar_iff _).1 (by decide +kernel)

/-! ## C109: folders that cannot be written -/

namespace Spec

/-- The error for a data folder that is not set, does not exist, or cannot be written. -/
def folderError (isDir canWrite : Str → Bool) : Option Str → Option Nat
  | none => some 8000
  | some d => if d = [] then some 8000 else if ¬ isDir d then some 8600 else if ¬ canWrite d then some 8500 else none

end Spec

theorem checkWrite_eq (isDir canWrite : Str → Bool) (d : Option Str) :
    checkWrite isDir canWrite d = match folderError isDir canWrite d with
      | some c => .error (.app c)
      | none => .ok () := by
  unfold checkWrite folderError
  cases d with
  | none => rfl
  | some d =>
    dsimp only
    by_cases h1 : d = []
    · rw [if_pos h1, if_pos h1]; rfl
    · rw [if_neg h1, if_neg h1]
      cases h2 : isDir d
      · rfl
      · cases h3 : canWrite d <;> rfl

/-- **C109** (geopotentials). A geopotential of a new grid is registered only when the user's folder is set, exists and
can be written; otherwise the run ends with the documented error and the registry stays as it was. -/
theorem geopotential_folder (le : Str → Str → Bool) (c : Conf Str) (id name : Str) (isDir canWrite : Str → Bool)
    (d : Option Str) (hid : id ∉ Dict.keys c.vars) :
    (∀ code, folderError isDir canWrite d = some code →
      geoAdd le c id name (checkWrite isDir canWrite d) = .error (.app code) ∧
      geoStep le c (.add id name (checkWrite isDir canWrite d)) = c) ∧
    (folderError isDir canWrite d = none → ∃ c', geoAdd le c id name (checkWrite isDir canWrite d) = .ok c' ∧
      Dict.get? c'.user id = some name) := by
  constructor
  · intro code h
    have e : geoAdd le c id name (checkWrite isDir canWrite d) = .error (.app code) := by
      unfold geoAdd
      rw [if_neg hid, checkWrite_eq, h]
      rfl
    refine ⟨e, ?_⟩
    unfold geoStep
    dsimp only
    rw [e]
  · intro h
    refine ⟨Conf.dump le { c with user := Dict.set c.user id name }, ?_, ?_⟩
    · unfold geoAdd
      rw [if_neg hid, checkWrite_eq, h]
      rfl
    · unfold Conf.dump
      dsimp only
      rw [Dict.get?_set, if_pos rfl]

/-- **C109** (tables). A table that has to be made is refused with 8100 unless creation was asked for, and then with the
documented error when the user's folder is not set, does not exist or cannot be written. -/
theorem table_folder {τ : Type} (w : Store τ) (r : TblRun) (isDir canWrite : Str → Bool) (f : Str)
    (hw : r.write = checkWrite isDir canWrite r.userDir) :
    (r.create = false → w.newPath r = .error (.app 8100) ∧ Store.recreatePath r f = .error (.app 8100)) ∧
    (r.create = true → ∀ code, folderError isDir canWrite r.userDir = some code →
      w.newPath r = .error (.app code) ∧ Store.recreatePath r f = .error (.app code)) ∧
    (r.create = true → folderError isDir canWrite r.userDir = none → ∃ p, Store.recreatePath r f = .ok p) := by
  refine ⟨?_, ?_, ?_⟩
  · intro h
    unfold Store.newPath Store.recreatePath
    rw [if_pos h, if_pos h]
    exact ⟨rfl, rfl⟩
  · intro h code hc
    unfold Store.newPath Store.recreatePath
    rw [if_neg (by rw [h]; decide), if_neg (by rw [h]; decide), hw, checkWrite_eq, hc]
    exact ⟨rfl, rfl⟩
  · intro h hc
    unfold Store.recreatePath
    rw [if_neg (by rw [h]; decide), hw, checkWrite_eq, hc]
    cases hd : r.userDir with
    | none => rw [hd] at hc; cases hc
    | some d => exact ⟨_, rfl⟩

example : folderError (fun _ => true) (fun _ => false) (some "/data".toList) = some 8500 ∧
    folderError (fun _ => false) (fun _ => false) (some "/data".toList) = some 8600 ∧
    folderError (fun _ => true) (fun _ => true) (some "/data".toList) = none := by decide +kernel

end PyG2P
