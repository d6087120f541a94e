import Verif.Model.Details
import Verif.Props.Api

/-! # C181: descriptions of parameters -/

namespace PyG2P
open Details

namespace Spec

/-- The object has the attribute `key` with value `v`. -/
def Has (d : Attrs) (key : String) (v : JVal) : Prop := Dict.get? d key.toList = some v

/-- `line` describes the conversion. -/
def ConvLine (str : JVal → Str) (c : Attrs) (line : Str) : Prop :=
  ∃ i u f k, Has c "@id" i ∧ Has c "@unit" u ∧ Has c "@function" f ∧ Has c "@cutOffNegative" k ∧
    line = "Conversion id: ".toList ++ str i ++ " unit ".toList ++ str u ++ " ".toList ++ str f ++
      " [cut negative: ".toList ++ str k ++ "]".toList

/-- `line` describes the parameter. -/
def ParamLine (str : JVal → Str) (p : RawParam) (line : Str) : Prop :=
  ∃ n d u, Has p.attrs "@shortName" n ∧ Has p.attrs "@description" d ∧ Has p.attrs "@unit" u ∧
    line = "Parameter ".toList ++ str n ++ ": ".toList ++ str d ++ " Unit: ".toList ++ str u

/-- The conversions of a parameter, one object counting as a list of one. -/
inductive ConversionsOf : RawConv → List Attrs → Prop
  | one (c : Attrs) : ConversionsOf (.one c) [c]
  | many (cs : List Attrs) : ConversionsOf (.many cs) cs

/-- Nothing is missing in the description of a parameter. -/
def Complete (p : RawParam) : Prop :=
  (∀ key ∈ ["@shortName", "@description", "@unit"], ∃ v, Has p.attrs key v) ∧
    ∃ cs, ConversionsOf p.conversion cs ∧
      ∀ c ∈ cs, ∀ key ∈ ["@id", "@unit", "@function", "@cutOffNegative"], ∃ v, Has c key v

end Spec

open Spec

theorem item_ok {d : Attrs} {key : String} {v : JVal} (h : Has d key v) : item d key = .ok v := by
  unfold item
  rw [show Dict.get? d key.toList = some v from h]

theorem item_iff {d : Attrs} {key : String} {v : JVal} : item d key = .ok v ↔ Has d key v := by
  refine ⟨fun h => ?_, item_ok⟩
  unfold item at h
  unfold Has
  cases hg : Dict.get? d key.toList with
  | none => rw [hg] at h; cases h
  | some w => rw [hg] at h; injection h with h; rw [h]

theorem item_cases (d : Attrs) (key : String) : (∃ v, Has d key v) ∨ item d key = .error .keyError := by
  unfold item Has
  cases Dict.get? d key.toList with
  | none => exact .inr rfl
  | some w => exact .inl ⟨w, rfl⟩

theorem conv_line_iff (str : JVal → Str) (c : Attrs) (line : Str) :
    convLine str c = .ok line ↔ ConvLine str c line := by
  unfold convLine ConvLine
  simp only [bind_ok_iff, item_iff]
  constructor
  · rintro ⟨i, h1, u, h2, f, h3, k, h4, h⟩
    exact ⟨i, u, f, k, h1, h2, h3, h4, (Except.ok.inj h).symm⟩
  · rintro ⟨i, u, f, k, h1, h2, h3, h4, rfl⟩
    exact ⟨i, h1, u, h2, f, h3, k, h4, rfl⟩

theorem conv_line_cases (str : JVal → Str) (c : Attrs) :
    (∃ line, convLine str c = .ok line) ∨ convLine str c = .error .keyError := by
  unfold convLine
  rcases item_cases c "@id" with ⟨i, h1⟩ | h
  · rcases item_cases c "@unit" with ⟨u, h2⟩ | h
    · rcases item_cases c "@function" with ⟨f, h3⟩ | h
      · rcases item_cases c "@cutOffNegative" with ⟨k, h4⟩ | h
        · rw [item_ok h1, item_ok h2, item_ok h3, item_ok h4]
          exact .inl ⟨_, rfl⟩
        · rw [item_ok h1, item_ok h2, item_ok h3, h]
          exact .inr rfl
      · rw [item_ok h1, item_ok h2, h]
        exact .inr rfl
    · rw [item_ok h1, h]
      exact .inr rfl
  · rw [h]
    exact .inr rfl

theorem add_lines_iff (str : JVal → Str) (cs : List Attrs) (out text : Str) : addLines str out cs = .ok text ↔
    ∃ lines, List.Forall₂ (ConvLine str) cs lines ∧ text = out ++ (lines.map fun l => '\n' :: l).flatten := by
  induction cs generalizing out with
  | nil =>
    unfold addLines
    constructor
    · intro h
      exact ⟨[], .nil, by rw [← Except.ok.inj h]; simp⟩
    · rintro ⟨_, h, rfl⟩
      cases h
      simp
  | cons c cs ih =>
    unfold addLines
    rw [bind_ok_iff]
    constructor
    · rintro ⟨line, h1, h2⟩
      obtain ⟨lines, h3, h4⟩ := (ih _).1 h2
      exact ⟨line :: lines, .cons ((conv_line_iff str c line).1 h1) h3, by rw [h4]; simp⟩
    · rintro ⟨_, h, rfl⟩
      cases h with
      | cons h1 h2 =>
        rename_i line lines
        exact ⟨line, (conv_line_iff str c line).2 h1, (ih _).2 ⟨lines, h2, by simp⟩⟩

theorem add_lines_cases (str : JVal → Str) (cs : List Attrs) (out : Str) :
    (∃ text, addLines str out cs = .ok text) ∨ addLines str out cs = .error .keyError := by
  induction cs generalizing out with
  | nil => exact .inl ⟨_, rfl⟩
  | cons c cs ih =>
    unfold addLines
    rcases conv_line_cases str c with ⟨line, h⟩ | h
    · rw [h]
      exact ih _
    · rw [h]
      exact .inr rfl

theorem intercalate_lines (x : Str) (l : List Str) :
    ['\n'].intercalate (x :: l) = x ++ (l.map fun s => '\n' :: s).flatten := by
  induction l generalizing x with
  | nil => simp [List.intercalate]
  | cons y l ih =>
    have := ih y
    unfold List.intercalate at this ⊢
    rw [List.intersperse_cons₂]
    simp only [List.flatten_cons, List.map_cons]
    rw [this]
    simp

theorem join_lines (l : List Str) : joinLines l = ['\n'].intercalate l := by
  induction l with
  | nil => rfl
  | cons x l ih =>
    cases l with
    | nil => simp [joinLines, List.intercalate]
    | cons y l =>
      rw [joinLines, ih, intercalate_lines, intercalate_lines]
      simp

theorem describe_iff (str : JVal → Str) (p : RawParam) (text : Str) : describe str p = .ok text ↔
    ∃ head cs lines, ParamLine str p head ∧ ConversionsOf p.conversion cs ∧ List.Forall₂ (ConvLine str) cs lines ∧
      text = ['\n'].intercalate (head :: lines) := by
  unfold describe ParamLine
  simp only [bind_ok_iff, item_iff]
  constructor
  · rintro ⟨a, h1, d, h2, u, h3, h⟩
    cases hc : p.conversion with
    | absent => rw [hc] at h; cases h
    | one c =>
      rw [hc] at h
      obtain ⟨lines, h4, h5⟩ := (add_lines_iff ..).1 h
      exact ⟨_, _, lines, ⟨a, d, u, h1, h2, h3, rfl⟩, .one c, h4, by rw [intercalate_lines, h5]⟩
    | many cs =>
      rw [hc] at h
      obtain ⟨lines, h4, h5⟩ := (add_lines_iff ..).1 h
      exact ⟨_, _, lines, ⟨a, d, u, h1, h2, h3, rfl⟩, .many cs, h4, by rw [intercalate_lines, h5]⟩
  · rintro ⟨head, cs, lines, ⟨a, d, u, h1, h2, h3, rfl⟩, hcs, hl, rfl⟩
    refine ⟨a, h1, d, h2, u, h3, ?_⟩
    rw [intercalate_lines]
    cases hc : p.conversion with
    | absent => rw [hc] at hcs; cases hcs
    | one c =>
      rw [hc] at hcs
      cases hcs
      exact (add_lines_iff ..).2 ⟨lines, hl, rfl⟩
    | many cs =>
      rw [hc] at hcs
      cases hcs
      exact (add_lines_iff ..).2 ⟨lines, hl, rfl⟩

theorem describe_cases (str : JVal → Str) (p : RawParam) :
    (∃ text, describe str p = .ok text) ∨ describe str p = .error .keyError := by
  unfold describe
  rcases item_cases p.attrs "@shortName" with ⟨a, h1⟩ | h
  · rcases item_cases p.attrs "@description" with ⟨d, h2⟩ | h
    · rcases item_cases p.attrs "@unit" with ⟨u, h3⟩ | h
      · rw [item_ok h1, item_ok h2, item_ok h3]
        cases p.conversion with
        | absent => exact .inr rfl
        | one c => exact add_lines_cases str _ _
        | many cs => exact add_lines_cases str _ _
      · rw [item_ok h1, item_ok h2, h]
        exact .inr rfl
    · rw [item_ok h1, h]
      exact .inr rfl
  · rw [h]
    exact .inr rfl

/-- The lines of a complete list of conversions. -/
theorem lines_exist (str : JVal → Str) (cs : List Attrs) :
    (∃ lines, List.Forall₂ (ConvLine str) cs lines) ↔
      ∀ c ∈ cs, ∀ key ∈ ["@id", "@unit", "@function", "@cutOffNegative"], ∃ v, Has c key v := by
  constructor
  · rintro ⟨lines, h⟩
    induction h with
    | nil => intro c hc; cases hc
    | cons h _ ih =>
      intro c hc
      rcases List.mem_cons.1 hc with rfl | hc
      · obtain ⟨i, u, f, k, h1, h2, h3, h4, -⟩ := h
        simp only [List.mem_cons, List.not_mem_nil, or_false]
        rintro key (rfl | rfl | rfl | rfl)
        · exact ⟨i, h1⟩
        · exact ⟨u, h2⟩
        · exact ⟨f, h3⟩
        · exact ⟨k, h4⟩
      · exact ih c hc
  · intro h
    induction cs with
    | nil => exact ⟨[], .nil⟩
    | cons c cs ih =>
      obtain ⟨lines, hl⟩ := ih fun c hc => h c (List.mem_cons_of_mem _ hc)
      have hc := h c List.mem_cons_self
      obtain ⟨i, h1⟩ := hc "@id" (by decide)
      obtain ⟨u, h2⟩ := hc "@unit" (by decide)
      obtain ⟨f, h3⟩ := hc "@function" (by decide)
      obtain ⟨k, h4⟩ := hc "@cutOffNegative" (by decide)
      exact ⟨_ :: lines, .cons ⟨i, u, f, k, h1, h2, h3, h4, rfl⟩ hl⟩

theorem complete_iff (str : JVal → Str) (p : RawParam) : Complete p ↔ ∃ text, describe str p = .ok text := by
  simp only [describe_iff]
  constructor
  · rintro ⟨h, cs, hcs, hl⟩
    obtain ⟨lines, hl⟩ := (lines_exist str cs).2 hl
    obtain ⟨a, h1⟩ := h "@shortName" (by decide)
    obtain ⟨d, h2⟩ := h "@description" (by decide)
    obtain ⟨u, h3⟩ := h "@unit" (by decide)
    exact ⟨_, _, cs, lines, ⟨a, d, u, h1, h2, h3, rfl⟩, hcs, hl, rfl⟩
  · rintro ⟨text, head, cs, lines, ⟨a, d, u, h1, h2, h3, -⟩, hcs, hl, -⟩
    refine ⟨?_, cs, hcs, (lines_exist str cs).1 ⟨lines, hl⟩⟩
    simp only [List.mem_cons, List.not_mem_nil, or_false]
    rintro key (rfl | rfl | rfl)
    · exact ⟨a, h1⟩
    · exact ⟨d, h2⟩
    · exact ⟨u, h3⟩

theorem details_of {str : JVal → Str} {c : Conf RawParam} {name : Str} {p : RawParam} (hn : name ≠ [])
    (hp : getParameter RawParam.truthy c.vars name = .ok p) :
    parameterDetails str c (some name) = describe str p := by
  unfold parameterDetails
  cases name with
  | nil => exact absurd rfl hn
  | cons x l =>
    dsimp only
    rw [hp]
    rfl

/-- **C181**: the description of a complete parameter: a line with its name, description and unit, then one for each of its
conversions, in their order, with identifier, unit, function and cut-off. -/
theorem details_text (str : JVal → Str) (c : Conf RawParam) (name : Str) (hn : name ≠ []) (p : RawParam)
    (hp : getParameter RawParam.truthy c.vars name = .ok p) (text : Str) :
    parameterDetails str c (some name) = .ok text ↔
      ∃ head cs lines, ParamLine str p head ∧ ConversionsOf p.conversion cs ∧ List.Forall₂ (ConvLine str) cs lines ∧
        text = ['\n'].intercalate (head :: lines) := by
  rw [details_of hn hp]
  exact describe_iff str p text

/-- **C181** holds for complete parameters only: otherwise the API raises KeyError. -/
theorem details_complete (str : JVal → Str) (c : Conf RawParam) (name : Str) (hn : name ≠ []) (p : RawParam)
    (hp : getParameter RawParam.truthy c.vars name = .ok p) :
    (Complete p → ∃ text, parameterDetails str c (some name) = .ok text) ∧
      (¬ Complete p → parameterDetails str c (some name) = .error .keyError) := by
  rw [details_of hn hp, complete_iff str p]
  exact ⟨id, (describe_cases str p).resolve_left⟩

/-- **C181**: a name that is not configured. -/
theorem details_unknown (str : JVal → Str) (c : Conf RawParam) (name : Str) (hn : name ≠ [])
    (h : name ∉ Dict.keys c.vars) : parameterDetails str c (some name) = .error (.app 1100) := by
  have hg : Dict.get? c.vars name = none := by
    cases hg : Dict.get? c.vars name with
    | none => rfl
    | some v => exact absurd (Dict.get?_isSome_iff.1 (by rw [hg]; rfl)) h
  unfold parameterDetails
  cases name with
  | nil => exact absurd rfl hn
  | cons x l =>
    dsimp only
    unfold getParameter
    rw [hg]
    rfl

/-- **C181**: without a name, or with the empty one, the names of the user's file (C95), one per line. -/
theorem details_names (str : JVal → Str) (le : Str → Str → Bool) (global template : Dict Str RawParam)
    (disk : Option (JFile RawParam)) (c : Conf RawParam) (h : Conf.init le global template disk = .ok c)
    (ht : template ≠ []) (name : Option Str) (hn : name = none ∨ name = some []) :
    ∃ names, (∀ x, x ∈ names ↔ x ∈ Dict.keys c.user) ∧ parameterDetails str c name =
      .ok ("Available parameters short names: \n".toList ++ ['\n'].intercalate names) := by
  obtain ⟨names, h1, h2⟩ := api_names_partial le global template disk c h ht
  refine ⟨names, h2, ?_⟩
  rcases hn with rfl | rfl
  · unfold parameterDetails
    rw [h1]
    show Except.ok _ = _
    dsimp only
    rw [join_lines]
  · unfold parameterDetails
    rw [h1]
    show Except.ok _ = _
    dsimp only
    rw [join_lines]

theorem find_first {id : Str} {cs : List Attrs} (hc : ∀ c ∈ cs, ∃ v, Has c "@id" v) {a : Attrs} (ha : a ∈ cs)
    (hid : Has a "@id" (.str id)) : ∃ b ∈ cs, Has b "@id" (.str id) ∧ findConversion id cs = .ok b := by
  induction cs with
  | nil => cases ha
  | cons c cs ih =>
    obtain ⟨v, hv⟩ := hc c List.mem_cons_self
    unfold findConversion
    rw [item_ok hv]
    by_cases hvi : v = .str id
    · subst hvi
      exact ⟨c, List.mem_cons_self, hv, by rw [ok_bind, if_pos rfl]; rfl⟩
    · have ha' : a ∈ cs := by
        rcases List.mem_cons.1 ha with rfl | h
        · exfalso
          unfold Has at hv hid
          rw [hv] at hid
          exact hvi (Option.some.inj hid)
        · exact h
      obtain ⟨b, h1, h2, h3⟩ := ih (fun c hc' => hc c (List.mem_cons_of_mem _ hc')) ha'
      exact ⟨b, List.mem_cons_of_mem _ h1, h2, by rw [ok_bind, if_neg hvi]; exact h3⟩

/-- **C181**: what is described can be used: a command on a described parameter takes its description and unit, and with a
conversion that is described the unit and function of one with this identifier. -/
theorem described_usable (str : JVal → Str) (c : Conf RawParam) (name : Str) (hn : name ≠ []) (p : RawParam)
    (hp : getParameter RawParam.truthy c.vars name = .ok p) (text : Str)
    (h : parameterDetails str c (some name) = .ok text) :
    ∃ d u, Has p.attrs "@description" d ∧ Has p.attrs "@unit" u ∧ commandTakes c name none = .ok ⟨d, u, none, .null⟩ ∧
      ∀ cs a id, ConversionsOf p.conversion cs → a ∈ cs → Has a "@id" (.str id) →
        ∃ b ∈ cs, Has b "@id" (.str id) ∧ ∃ u' f k, Has b "@unit" u' ∧ Has b "@function" f ∧ Has b "@cutOffNegative" k ∧
          commandTakes c name (some id) = .ok ⟨d, u', some f, k⟩ := by
  rw [details_of hn hp] at h
  obtain ⟨h1, cs0, hcs0, h2⟩ := (complete_iff str p).2 ⟨text, h⟩
  obtain ⟨d, hd⟩ := h1 "@description" (by decide)
  obtain ⟨u, hu⟩ := h1 "@unit" (by decide)
  refine ⟨d, u, hd, hu, ?_, ?_⟩
  · unfold commandTakes
    rw [hp, ok_bind, item_ok hd, ok_bind, item_ok hu]
    rfl
  · intro cs a id hcs ha hid
    have : cs = cs0 := by
      generalize p.conversion = q at hcs hcs0
      cases hcs <;> cases hcs0 <;> rfl
    subst this
    obtain ⟨b, hb, hbi, hf⟩ := find_first (fun c hc => h2 c hc "@id" (by decide)) ha hid
    obtain ⟨u', hu'⟩ := h2 b hb "@unit" (by decide)
    obtain ⟨f, hf'⟩ := h2 b hb "@function" (by decide)
    obtain ⟨k, hk⟩ := h2 b hb "@cutOffNegative" (by decide)
    refine ⟨b, hb, hbi, u', f, k, hu', hf', hk, ?_⟩
    unfold commandTakes
    rw [hp, ok_bind, item_ok hd, ok_bind, item_ok hu, ok_bind]
    dsimp only
    have hfound : rawConversion p.conversion id = .ok b := by
      generalize p.conversion = q at hcs ⊢
      cases hcs <;> exact hf
    rw [hfound]
    dsimp only
    rw [item_ok hu', ok_bind, item_ok hf', ok_bind]
    unfold Has at hk
    rw [hk]
    rfl

/-- **C181 is violated**: a parameter without conversions can be used in every command that asks for none, but is not
described: KeyError. -/
theorem details_without_conversion (str : JVal → Str) (c : Conf RawParam) (name : Str) (hn : name ≠ []) (p : RawParam)
    (hp : getParameter RawParam.truthy c.vars name = .ok p) (d u : JVal) (hd : Has p.attrs "@description" d)
    (hu : Has p.attrs "@unit" u) (hc : p.conversion = .absent) :
    commandTakes c name none = .ok ⟨d, u, none, .null⟩ ∧
      parameterDetails str c (some name) = .error .keyError := by
  constructor
  · unfold commandTakes
    rw [hp, ok_bind, item_ok hd, ok_bind, item_ok hu]
    rfl
  · refine (details_complete str c name hn p hp).2 ?_
    rintro ⟨-, cs, hcs, -⟩
    rw [hc] at hcs
    cases hcs

/-- **C181 is violated**: a parameter one of whose conversions has no `@cutOffNegative` is not described (KeyError), but can
be used with this conversion, if it is its only one (no values are cut then: the attribute counts as missing). -/
theorem details_without_cut (str : JVal → Str) (c : Conf RawParam) (name : Str) (hn : name ≠ []) (p : RawParam)
    (hp : getParameter RawParam.truthy c.vars name = .ok p) (cs : List Attrs) (hcs : ConversionsOf p.conversion cs)
    (a : Attrs) (ha : a ∈ cs) (hno : Dict.get? a "@cutOffNegative".toList = none) :
    parameterDetails str c (some name) = .error .keyError ∧
      (cs = [a] → ∀ d u id u' f, Has p.attrs "@description" d → Has p.attrs "@unit" u → Has a "@id" (.str id) →
        Has a "@unit" u' → Has a "@function" f → commandTakes c name (some id) = .ok ⟨d, u', some f, .null⟩) := by
  constructor
  · refine (details_complete str c name hn p hp).2 ?_
    rintro ⟨-, cs0, hcs0, h⟩
    have : cs = cs0 := by
      generalize p.conversion = q at hcs hcs0
      cases hcs <;> cases hcs0 <;> rfl
    subst this
    obtain ⟨v, hv⟩ := h a ha "@cutOffNegative" (by decide)
    unfold Has at hv
    rw [hno] at hv
    cases hv
  · rintro rfl d u id u' f hd hu hid hu' hf
    have hfind : findConversion id [a] = .ok a := by
      unfold findConversion
      rw [item_ok hid, ok_bind, if_pos rfl]
      rfl
    unfold commandTakes
    rw [hp, ok_bind, item_ok hd, ok_bind, item_ok hu, ok_bind]
    dsimp only
    have hfound : rawConversion p.conversion id = .ok a := by
      generalize p.conversion = q at hcs ⊢
      cases hcs <;> exact hfind
    rw [hfound]
    dsimp only
    rw [item_ok hu', ok_bind, item_ok hf, ok_bind, hno]
    rfl

namespace Demo

def obj (l : List (String × String)) : Attrs := l.map fun p => (p.1.toList, .str p.2.toList)

/-- `2t`, `2d` and `10u` of configuration/global/parameters.json. -/
def shipped : Conf RawParam :=
  ⟨[("2t".toList, ⟨obj [("@shortName", "2t"), ("@description", "2 meters Temperature"), ("@unit", "K")],
      .one (obj [("@function", "x=x-273.15"), ("@id", "k2c"), ("@unit", "C"), ("@cutOffNegative", "False")])⟩),
    ("2d".toList, ⟨obj [("@shortName", "2d"), ("@description", "2 meters Dewpoint"), ("@unit", "K")],
      .one (obj [("@function", "x=x-273.15"), ("@id", "k2c"), ("@unit", "C")])⟩),
    ("10u".toList, ⟨obj [("@shortName", "10u"), ("@description", "10 meters u wind component"), ("@unit", "m/s")],
      .absent⟩)], [], some (.obj [])⟩

def text : JVal → Str
  | .str s => s
  | _ => []

example : parameterDetails text shipped (some "2t".toList) = .ok
    "Parameter 2t: 2 meters Temperature Unit: K\nConversion id: k2c unit C x=x-273.15 [cut negative: False]".toList := by
  decide +kernel

/-- C181 fails for `2d` and `10u`, which commands can use. -/
example : parameterDetails text shipped (some "2d".toList) = .error .keyError ∧
    parameterDetails text shipped (some "10u".toList) = .error .keyError ∧
    commandTakes shipped "2d".toList (some "k2c".toList) =
      .ok ⟨.str "2 meters Dewpoint".toList, .str "C".toList, some (.str "x=x-273.15".toList), .null⟩ ∧
    commandTakes shipped "10u".toList none =
      .ok ⟨.str "10 meters u wind component".toList, .str "m/s".toList, none, .null⟩ :=
  ⟨(details_without_cut text shipped "2d".toList (by decide) _ rfl _ (.one _) _ List.mem_cons_self rfl).1,
    (details_without_conversion text shipped "10u".toList (by decide) _ rfl _ _ rfl rfl rfl).2,
    (details_without_cut text shipped "2d".toList (by decide) _ rfl _ (.one _) _ List.mem_cons_self rfl).2 rfl _ _ _ _ _
      rfl rfl rfl rfl rfl,
    (details_without_conversion text shipped "10u".toList (by decide) _ rfl _ _ rfl rfl rfl).1⟩

/-- The entry the program writes for the user at the first start (config.py 195-205) is not described either. -/
example : parameterDetails text ⟨[("xyz".toList, ⟨obj [("@description", "var description"), ("@shortName", "xyz"),
      ("@unit", "xyz_unit_string")], .one (obj [("@function", "x=x"), ("@id", "xyz_conversion_id"),
      ("@unit", "xyz_converted_unit")])⟩)], [], none⟩ (some "xyz".toList) = .error .keyError :=
  (details_without_cut text _ "xyz".toList (by decide) _ rfl _ (.one _) _ List.mem_cons_self rfl).1

end Demo
end PyG2P
