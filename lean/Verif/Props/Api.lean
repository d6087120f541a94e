import Verif.Model.Api
import Verif.Props.Context
import Verif.Props.Writers
import Verif.Props.Exe
import Verif.Props.Config
import Verif.Props.HalfWeights
import Verif.Props.Tables

/-! # C92-C95: the programming interface -/

namespace PyG2P

/-! ## C92: options -/

/-- The options of a command line as the top level of an API dictionary (`start` and `end` always given, with `None` for
"not given"). -/
def Api.ofCli (c : Cli) : Api.Top :=
  { start := some (JVal.ofOption .int c.start), end_ := some (JVal.ofOption .int c.end_)
    dataTime := JVal.ofOption .int c.dataTime, dataDate := JVal.ofOption .int c.dataDate
    fmap := JVal.ofOption .int c.fmap, ext := JVal.ofOption .int c.ext, namePrefix := JVal.ofOption .str c.namePrefix
    scaleFactor := JVal.ofOption .str c.scaleFactor, offset := JVal.ofOption .str c.offset
    validMin := JVal.ofOption .str c.validMin, validMax := JVal.ofOption .str c.validMax
    valueFormat := JVal.ofOption .str c.valueFormat, outputStepUnits := JVal.ofOption .str c.outputStepUnits
    intertableDir := JVal.ofOption .str c.intertableDir, geopotentialDir := JVal.ofOption .str c.geopotentialDir }

theorem api_intOpt (c : Option Int) (j : JVal) : Api.intOpt (JVal.ofOption .int c) j = intOpt c j := by
  cases c with
  | none => by_cases h : j.truthy = true <;> simp [Api.intOpt, intOpt, JVal.ofOption, h]
  | some z => simp [Api.intOpt, intOpt, JVal.ofOption]

theorem api_dir (c : Option Str) (d : JVal) :
    (JVal.ofOption .str c).orElse d = match c with | some (x :: s) => .str (x :: s) | _ => d := by
  cases c with
  | none => rfl
  | some s => cases s <;> rfl

/-- **C92 (part)**: the API gives every option the value a command with the same options and the same sections gets,
except for the output format; for `fmap` and `ext` the option has to be given, and for the two folders the section
`Interpolation` must not set them. -/
theorem api_options_partial (c : Cli) (j : Json) (tblDir geoDir : Str) (o : Opt) (hfmt : o ≠ .format)
    (hf : o = .fmap → c.fmap ≠ none) (he : o = .ext → c.ext ≠ none)
    (ht : o = .intertableDir → j.intertableDir = .null) (hg : o = .geopotentialDir → j.geopotentialDir = .null) :
    Api.optValue (Api.ofCli c) j tblDir geoDir o = optValue c j tblDir geoDir o := by
  have hs : ∀ (x : Option Str) (v d : JVal), (.ok (Api.strOpt (JVal.ofOption .str x) v d) : Py JVal) = strOpt x v d := by
    intro x v d
    cases x <;> rfl
  have hr : ∀ (x : Option Str) (v : JVal), (.ok (Api.rawOpt (JVal.ofOption .str x) v) : Py JVal) = rawOpt x v := by
    intro x v
    cases x <;> rfl
  have hn : ∀ (x : Option Int) (v : JVal), x ≠ none → (.ok (Api.numOpt (JVal.ofOption .int x) v) : Py JVal) = numOpt x v := by
    intro x v hx
    cases x with
    | none => exact absurd rfl hx
    | some z =>
      by_cases h : z = 1 <;> simp [Api.numOpt, numOpt, Api.isOne, JVal.ofOption, h]
  cases o with
  | tstart => exact api_intOpt _ _
  | tend => exact api_intOpt _ _
  | dataTime => exact api_intOpt _ _
  | dataDate => exact api_intOpt _ _
  | fmap => exact hn _ _ (hf rfl)
  | ext => exact hn _ _ (he rfl)
  | format => exact absurd rfl hfmt
  | namePrefix =>
    unfold Api.optValue optValue prefixOpt
    dsimp only [Api.ofCli]
    rw [api_dir]
    cases c.namePrefix with
    | none => rfl
    | some s => cases s <;> rfl
  | scaleFactor => exact hs _ _ _
  | offset => exact hs _ _ _
  | validMin => exact hr _ _
  | validMax => exact hr _ _
  | valueFormat => exact hr _ _
  | outputStepUnits => exact hr _ _
  | intertableDir =>
    unfold Api.optValue optValue dirOpt
    dsimp only [Api.ofCli]
    rw [api_dir, ht rfl]
    cases c.intertableDir with
    | none => rfl
    | some s => cases s <;> rfl
  | geopotentialDir =>
    unfold Api.optValue optValue dirOpt
    dsimp only [Api.ofCli]
    rw [api_dir, hg rfl]
    cases c.geopotentialDir with
    | none => rfl
    | some s => cases s <;> rfl

/-- **C92 is violated** by the folders of the section `Interpolation`: the API uses the default folder instead. -/
theorem api_section_folder (c : Cli) (j : Json) (tblDir geoDir d : Str) (hc : c.intertableDir = none) (hd : d ≠ [])
    (hj : j.intertableDir = .str d) :
    optValue c j tblDir geoDir .intertableDir = .ok (.str d) ∧
    Api.optValue (Api.ofCli c) j tblDir geoDir .intertableDir = .ok (.str tblDir) := by
  unfold optValue Api.optValue dirOpt
  dsimp only [Api.ofCli]
  rw [hc, hj]
  constructor
  · dsimp only
    unfold JVal.orElse JVal.truthy
    rw [if_pos (decide_eq_true hd)]
  · rfl

/-- **C92 is violated** by `start` and `end`: a dictionary without them is refused with a plain `KeyError`, even if the
section `Parameter` has `tstart` and `tend`. -/
theorem api_start_required (t : Api.Top) (j : Json) (tblDir geoDir : Str) :
    (t.start = none → Api.optValue t j tblDir geoDir .tstart = .error .keyError) ∧
    (t.end_ = none → Api.optValue t j tblDir geoDir .tend = .error .keyError) := by
  unfold Api.optValue
  constructor
  · intro h; dsimp only; rw [h]
  · intro h; dsimp only; rw [h]

/-- **C92 (part)**: the aggregation options are those of the command, except for the half weights. -/
theorem api_aggregation_partial (a : Option JAggr) (half : JVal) :
    Api.apiAggregation a half = (Api.cliAggregation a half).map fun o => { o with halfweights := false } := by
  unfold Api.apiAggregation Api.cliAggregation
  cases a with
  | none => rfl
  | some j =>
    dsimp only
    cases forceZero j <;> rfl

/-- **C92 is violated** by `halfweights`: an API run asked for half weights returns the plain average. For the values
1, 2, 5 at steps 0, 6, 12 the command gives 5/2 and the API run 7/2 ((2 + 5) / 2). -/
theorem api_halfweights : ∃ (a : Option JAggr) (half : JVal) (oc oa : Api.AggOpts),
    Api.cliAggregation a half = .ok oc ∧ Api.apiAggregation a half = .ok oa ∧ oc.halfweights = true ∧ oa.halfweights = false ∧
    (Demo.avg 12 12 12 oc.halfweights).doManipulation [Demo.msg 12 (Demo.f 5), Demo.msg 6 (Demo.f 2), Demo.msg 0 (Demo.f 1)] =
      .ok [(⟨0, 12, 640, 12, 0⟩, ⟨fun _ => .fin (5/2), some fun _ => false⟩)] ∧
    (Demo.avg 12 12 12 oa.halfweights).doManipulation [Demo.msg 12 (Demo.f 5), Demo.msg 6 (Demo.f 2), Demo.msg 0 (Demo.f 1)] ≠
      .ok [(⟨0, 12, 640, 12, 0⟩, ⟨fun _ => .fin (5/2), some fun _ => false⟩)] := by
  refine ⟨some ⟨.int 12, .str "average".toList, none⟩, .str "True".toList, ⟨true, .int 12, .str "average".toList, true, false⟩,
    ⟨true, .int 12, .str "average".toList, false, false⟩, by decide +kernel, by decide +kernel, rfl, rfl, by decide +kernel,
    by decide +kernel⟩

/-! ## C93: values -/

theorem set_new {κ β : Type} [DecidableEq κ] (d : Dict κ β) (k : κ) (v : β) (h : k ∉ Dict.keys d) :
    Dict.set d k v = d ++ [(k, v)] := by
  induction d with
  | nil => rfl
  | cons p d ih =>
    obtain ⟨k', v'⟩ := p
    have h1 : k' ≠ k := fun hh => h (by rw [← hh]; exact List.mem_cons_self)
    unfold Dict.set
    rw [if_neg h1, ih fun hh => h (List.mem_cons_of_mem _ hh)]
    rfl

theorem set_fold {α κ β : Type} [DecidableEq κ] (key : α → κ) (val : α → β) (l : List α) :
    ∀ d : Dict κ β, (Dict.keys d ++ l.map key).Nodup →
      l.foldl (fun out q => Dict.set out (key q) (val q)) d = d ++ l.map fun q => (key q, val q) := by
  induction l with
  | nil => intro d _; simp
  | cons q l ih =>
    intro d hd
    have hq : key q ∉ Dict.keys d := by
      rw [List.map_cons] at hd
      have := List.nodup_append.1 hd
      exact fun hh => this.2.2 _ hh _ List.mem_cons_self rfl
    rw [List.foldl_cons, set_new d _ _ hq, ih _ (by
      unfold Dict.keys at hd ⊢
      rw [List.map_append, List.append_assoc]
      exact hd), List.append_assoc]
    rfl

theorem gridLoop_keys {α : Type} (change : Option Step) (l : List (Step × α)) :
    ∀ b, (gridLoop change b l).map (·.1) = l.map (·.1) := by
  induction l with
  | nil => intro b; rfl
  | cons p l ih =>
    intro b
    obtain ⟨t, v⟩ := p
    unfold gridLoop
    rw [List.map_cons, List.map_cons, ih]

theorem sorted_unchanged {α : Type} (f : α → Int) (l : List α) (h : l.Pairwise fun a b => f a ≤ f b) :
    sortedBy f l = l := by
  unfold sortedBy
  exact List.Pairwise.insertionSort_eq h

theorem api_execute_eq {α : Type} {n : Nat} (mask : Option (Fin n → Bool)) (mv : Num) (render : Bool → α → Arr n)
    (change : Option Step) (values : List (Step × α)) (hn : (values.map (·.1)).Nodup)
    (hs : values.Pairwise fun a b => a.1.endStep ≤ b.1.endStep) :
    Api.execute mask mv render change values =
      (gridLoop change false values).map fun q => (q.1, Api.maskValues mask mv (render q.2.2 q.2.1)) := by
  unfold Api.execute
  rw [set_fold (fun q : Step × α × Bool => q.1) (fun q => Api.maskValues mask mv (render q.2.2 q.2.1)) _ []
    (by rw [gridLoop_keys]; exact hn)]
  rw [List.nil_append]
  refine sorted_unchanged _ _ ?_
  rw [List.pairwise_map]
  have : ((gridLoop change false values).map (·.1)).Pairwise fun a b : Step => a.endStep ≤ b.endStep := by
    rw [gridLoop_keys, List.pairwise_map]
    exact hs
  rw [List.pairwise_map] at this
  exact this

/-- **C93 (part)**: for the values of the controller (one per step, in time order), the API returns one map per step in
the same order, and the map of every step is cell by cell the one the command writes in the PCRaster file of that
position — as long as the interpolated and corrected maps have no NaN outside the mask. -/
theorem api_as_pcraster_partial {α : Type} {n : Nat} (mask : Option (Fin n → Bool)) (mv : Num) (render : Bool → α → Arr n)
    (change : Option Step) (values : List (Step × α)) (hn : (values.map (·.1)).Nodup)
    (hs : values.Pairwise fun a b => a.1.endStep ≤ b.1.endStep)
    (hnan : ∀ b v i, (render b v).masked i = false → (render b v).data i ≠ .nan)
    (namePrefix : Str) (fmap ext : Int) :
    (Api.execute mask mv render change values).map (·.1) = values.map (·.1) ∧
    (Api.execute mask mv render change values).map (·.2) =
      (writePcraster namePrefix fmap ext (fun b v => pcrWrite mask mv (render b v)) change values).map (·.2) := by
  rw [api_execute_eq mask mv render change values hn hs]
  constructor
  · rw [List.map_map, ← gridLoop_keys change values false]
    rfl
  · unfold writePcraster
    rw [List.map_map, List.map_map]
    have e : (gridLoop change false values) = ((gridLoop change false values).zipIdx 1).map (·.1) := by
      rw [List.zipIdx_map_fst]
    conv_lhs => rw [e]
    rw [List.map_map]
    apply List.map_congr_left
    intro q _
    dsimp only [Function.comp_apply]
    funext i
    unfold Api.maskValues pcrWrite
    dsimp only
    by_cases hm : (render q.1.2.2 q.1.2.1).masked i = true
    · rw [hm, Bool.or_true, if_pos rfl, Bool.true_and]
      cases hd : ((render q.1.2.2 q.1.2.1).data i).isNan with
      | true => rw [if_pos rfl]; split_ifs <;> rfl
      | false => rw [Bool.not_false, Bool.or_true, if_pos rfl]
    · rw [Bool.not_eq_true] at hm
      have := hnan q.1.2.2 q.1.2.1 i hm
      have hd : ((render q.1.2.2 q.1.2.1).data i).isNan = false := by
        cases h : (render q.1.2.2 q.1.2.1).data i with
        | nan => exact absurd h this
        | fin x => rfl
      rw [hm, Bool.false_and, hd]
      rfl

/-- **C93 is violated** by NaN: such a cell is written by the command as missing value, but returned as NaN. -/
theorem api_nan {n : Nat} (mask : Option (Fin n → Bool)) (mv : Num) (v : Arr n) (i : Fin n) (ho : outside mask i = false)
    (hm : v.masked i = false) (hv : v.data i = .nan) :
    Api.maskValues mask mv v i = .nan ∧ pcrWrite mask mv v i = mv := by
  unfold Api.maskValues pcrWrite
  dsimp only
  rw [ho, hm, hv]
  exact ⟨rfl, rfl⟩

/-- Two steps, two cells, the second outside the clone. -/
example : Api.execute (n := 2) (some fun i => decide (i = 1)) (.fin (-9999)) (fun _ v => ⟨fun _ => .fin v, none⟩) none
    [(⟨0, 6, 640, 6, 0⟩, 5), (⟨6, 12, 640, 6, 0⟩, 7)] =
    [(⟨0, 6, 640, 6, 0⟩, fun i => if i = 1 then .fin (-9999) else .fin 5),
      (⟨6, 12, 640, 6, 0⟩, fun i => if i = 1 then .fin (-9999) else .fin 7)] := by decide +kernel

/-! ## C94: resources and tables -/

/-- **C94 is violated**: after every API run that opened its input the readers are still open; the command closes
them. -/
theorem api_readers_left_open (p : Phases) (h : p.openReader = none) :
    (Api.held p).1.reader = true ∧ (Api.held p).2 = true ∧ (executeMain none p).1.reader = false := by
  refine ⟨?_, by unfold Api.held; rw [h]; rfl, (C37_readers_closed none p).1⟩
  unfold Api.held execCtrl
  rw [h]
  dsimp only
  split
  · rfl
  · split
    · rfl
    · split
      · rfl
      · split
        · rfl
        · split
          · rfl
          · split
            · rfl
            · split <;> rfl

/-- **C94 is violated**: an API run with a GRIB method never creates a table: if there is none, the run fails and the
store is unchanged, although the same run as a command (where `build` succeeds) creates it. -/
theorem api_grib_never_creates {τ : Type} (le : Str → Str → Bool) (checks : Bool) (w : Store τ) (r : TblRun) (p : Path)
    (hp : w.tablePath r = .ok p) (hx : w.ex p = false) :
    ∃ e, w.grib le checks r Api.gribBuild = (.error e, w) := by
  unfold Store.grib
  rw [hp]
  dsimp only
  unfold Store.gribAt
  rw [if_neg (by rw [hx]; decide)]
  by_cases hc : r.create = true
  · rw [if_pos hc]
    cases Store.writeCheck checks r with
    | error e => exact ⟨e, rfl⟩
    | ok u => exact ⟨_, rfl⟩
  · rw [if_neg hc]
    exact ⟨_, rfl⟩

/-! ## C95: list of parameters -/

/-- **C95 (part)**: after start-up the API lists the names of the user's file: every one of them, and no others. -/
theorem api_names_partial {V : Type} (le : Str → Str → Bool) (global template : Dict Str V) (disk : Option (JFile V))
    (c : Conf V) (h : Conf.init le global template disk = .ok c) (ht : template ≠ []) :
    ∃ names, Api.parameterNames c = .ok names ∧ ∀ x, x ∈ names ↔ x ∈ Dict.keys c.user := by
  unfold Conf.init at h
  cases disk with
  | none =>
    cases h
    unfold Api.parameterNames
    dsimp only
    obtain ⟨d', hd', hperm⟩ := dumpFile_obj le ht
    rw [hd']
    exact ⟨_, rfl, fun x => by
      unfold Dict.keys
      exact (hperm.map _).mem_iff⟩
  | some f =>
    cases f with
    | obj d =>
      cases h
      exact ⟨_, rfl, fun x => Iff.rfl⟩
    | text s => cases h
    | invalid => cases h

/-- **C95 is violated**: a parameter of the global configuration that the user's file does not repeat can be used, but
is not listed. -/
theorem api_names_missing {V : Type} (truthy : V → Bool) (le : Str → Str → Bool) (global template : Dict Str V)
    (disk : Option (JFile V)) (c : Conf V) (h : Conf.init le global template disk = .ok c) (ht : template ≠ [])
    (x : Str) (v : V) (hv : Dict.get? c.vars x = some v) (htr : truthy v = true) (hu : x ∉ Dict.keys c.user) :
    getParameter truthy c.vars x = .ok v ∧ ∃ names, Api.parameterNames c = .ok names ∧ x ∉ names := by
  constructor
  · unfold getParameter
    rw [hv]
    dsimp only
    rw [if_pos htr]
  · obtain ⟨names, hn, hi⟩ := api_names_partial le global template disk c h ht
    exact ⟨names, hn, fun hx => hu ((hi x).1 hx)⟩

/-- With global parameter `2t` and a user file that has `xyz` only. -/
example : ∃ c : Conf Nat, Conf.init (fun _ _ => true) [("2t".toList, 1)] [("d".toList, 0)] (some (.obj [("xyz".toList, 2)])) = .ok c ∧
    Dict.get? c.vars "2t".toList = some 1 ∧ "2t".toList ∉ Dict.keys c.user ∧
    Api.parameterNames c = .ok ["xyz".toList] := ⟨_, rfl, by decide +kernel, by decide +kernel, rfl⟩

end PyG2P
