import Verif.Props.PipelineMissing

/-! # C129, C130: bounds of the values written -/

namespace PyG2P
open Spec TableApply Converter Aggregator
variable {n m k : Nat}

namespace Spec

/-- The entry of cell `c` in the table: source points of the grid and their weights. -/
def EntryOf (t : Table k) (c : Fin k) (row : List (Fin n × ℚ)) : Prop :=
  match t with
  | .gribNearest tbl => ∃ p : Fin n, rowFor (·.1) tbl c = some (c, p.1) ∧ row = [(p, 1)]
  | .gribInvdist tbl => ∃ (p1 p2 p3 p4 : Fin n) (w1 w2 w3 w4 : ℚ),
      rowFor Row.cell tbl c = some ⟨c, (p1.1, .fin w1), (p2.1, .fin w2), (p3.1, .fin w3), (p4.1, .fin w4)⟩ ∧
      row = [(p1, w1), (p2, w2), (p3, w3), (p4, w4)]
  | .nearest idx => ∃ p : Fin n, idx c = p.1 ∧ row = [(p, 1)]
  | .weighted rows => rows c = row.map fun p => (p.1.1, .fin p.2)

/-- The weights are those of a mean. -/
def MeanWeights (row : List (Fin n × ℚ)) : Prop := (∀ p ∈ row, 0 ≤ p.2) ∧ (row.map (·.2)).sum = 1

end Spec

theorem num_add_zero (x : Num) : x + 0 = x := by
  cases x with
  | nan => rfl
  | fin q => rw [Num.zero_def, Num.fin_add, add_zero]

theorem num_one_mul (x : Num) : Num.fin 1 * x = x := by
  cases x with
  | nan => rfl
  | fin q => rw [Num.fin_mul, one_mul]

theorem num_mul_comm (x y : Num) : x * y = y * x := by
  cases x <;> cases y <;> first | rfl | (rw [Num.fin_mul, Num.fin_mul, mul_comm])

theorem valueAt_fin (v : Arr n) (mv : Num) (p : Fin n) : valueAt v mv p.1 = v.data p := by
  unfold valueAt
  rw [dif_pos p.2]

/-- What the table makes of a field without mask at the points of the entry. -/
theorem cell_entry (t : Table k) (mv : Num) (v : Arr n) (c : Fin k) (row : List (Fin n × ℚ)) (h : EntryOf t c row)
    (hm : ∀ p ∈ row, v.masked p.1 = false) :
    cellOf t mv v c = (row.map fun p => Num.fin p.2 * v.data p.1).sum := by
  cases t with
  | gribNearest tbl =>
    obtain ⟨p, hp, rfl⟩ := h
    have := hm _ List.mem_cons_self
    dsimp only at this
    unfold cellOf
    dsimp only
    rw [hp]
    unfold sample
    dsimp only
    rw [dif_pos p.2, Fin.eta, this, if_neg (by decide), List.map_cons, List.map_nil, List.sum_cons, List.sum_nil,
      num_one_mul, num_add_zero]
  | gribInvdist tbl =>
    obtain ⟨p1, p2, p3, p4, w1, w2, w3, w4, hp, rfl⟩ := h
    have e : ∀ p : Fin n, v.masked p = false → maskedAt v p.1 = false := by
      intro p hp
      unfold maskedAt
      rw [dif_pos p.2]
      exact hp
    have m1 := e p1 (hm (p1, w1) (by simp))
    have m2 := e p2 (hm (p2, w2) (by simp))
    have m3 := e p3 (hm (p3, w3) (by simp))
    have m4 := e p4 (hm (p4, w4) (by simp))
    unfold cellOf
    dsimp only
    rw [hp]
    dsimp only
    rw [m1, m2, m3, m4, if_neg (by decide)]
    simp only [valueAt_fin, List.map_cons, List.map_nil, List.sum_cons, List.sum_nil, num_add_zero, Num.add_assoc',
      num_mul_comm (v.data _)]
  | nearest idx =>
    obtain ⟨p, hp, rfl⟩ := h
    unfold cellOf
    dsimp only
    rw [hp, valueAt_fin, List.map_cons, List.map_nil, List.sum_cons, List.sum_nil, num_one_mul, num_add_zero]
  | weighted rows =>
    have h : rows c = row.map fun p => (p.1.1, .fin p.2) := h
    unfold cellOf
    dsimp only
    rw [h, List.map_map]
    congr 1
    refine List.map_congr_left fun p _ => ?_
    change Num.fin p.2 * valueAt v mv p.1.1 = _
    rw [valueAt_fin]

theorem mean_bounds {row : List (Fin n × ℚ)} (hw : MeanWeights row) {x : Fin n → ℚ} {lo hi : ℚ}
    (h : ∀ p ∈ row, lo ≤ x p.1 ∧ x p.1 ≤ hi) :
    lo ≤ (row.map fun p => p.2 * x p.1).sum ∧ (row.map fun p => p.2 * x p.1).sum ≤ hi := by
  have key : ∀ l : List (Fin n × ℚ), (∀ p ∈ l, 0 ≤ p.2) → (∀ p ∈ l, lo ≤ x p.1 ∧ x p.1 ≤ hi) →
      (l.map (·.2)).sum * lo ≤ (l.map fun p => p.2 * x p.1).sum ∧
      (l.map fun p => p.2 * x p.1).sum ≤ (l.map (·.2)).sum * hi := by
    intro l
    induction l with
    | nil => intro _ _; simp
    | cons p l ih =>
      intro h0 h1
      obtain ⟨i1, i2⟩ := ih (fun q hq => h0 q (List.mem_cons_of_mem _ hq)) fun q hq => h1 q (List.mem_cons_of_mem _ hq)
      have hp := h0 p List.mem_cons_self
      obtain ⟨b1, b2⟩ := h1 p List.mem_cons_self
      simp only [List.map_cons, List.sum_cons, add_mul]
      exact ⟨add_le_add (mul_le_mul_of_nonneg_left b1 hp) i1, add_le_add (mul_le_mul_of_nonneg_left b2 hp) i2⟩
  have := key row hw.1 h
  rw [hw.2, one_mul, one_mul] at this
  exact this

theorem nonneg_sum {row : List (Fin n × ℚ)} (hw : ∀ p ∈ row, 0 ≤ p.2) {x : Fin n → ℚ} (h : ∀ p ∈ row, 0 ≤ x p.1) :
    0 ≤ (row.map fun p => p.2 * x p.1).sum := by
  induction row with
  | nil => simp
  | cons p l ih =>
    rw [List.map_cons, List.sum_cons]
    exact add_nonneg (mul_nonneg (hw p List.mem_cons_self) (h p List.mem_cons_self))
      (ih (fun q hq => hw q (List.mem_cons_of_mem _ hq)) fun q hq => h q (List.mem_cons_of_mem _ hq))

theorem shown_fin (mask : Option (Fin k → Bool)) (mv : Num) (q : ℚ) (c : Fin k) (h : outside mask c = false) :
    shown mask mv (.fin q) c = .fin q := by
  unfold shown
  rw [if_neg]
  rintro (h' | h')
  · rw [h] at h'; cases h'
  · cases h'

/-- **C129.** A run on one grid without aggregation, cut-off and correction: where the table makes a cell as a mean of
source points at which the message is not masked, the cell of the message's map lies between any bounds of the converted
values at these points. In particular a constant is reproduced (`lo = hi`). -/
theorem plain_within (ne : NumExpr) (r : RunIn n m k) (f : Num → Num) (mv : ℚ) (hmv : r.ctrl.msgs.mv = .fin mv)
    (hconv : Means ne r.conversion f) (hone : r.ctrl.msgs.changeResolutionStep = none) (hfit : Fits r.table n)
    (hagg : r.ctrl.aggregate = false) (hcut : cuts r = false) (hcorr : r.height = none) (c : Fin k)
    (hin : outside r.mask c = false) (row : List (Fin n × ℚ)) (hrow : EntryOf r.table c row) (hw : MeanWeights row) :
    ∃ (ord : Messages n) (files : List (Str × (Fin k → Num))), ord.Perm r.ctrl.msgs.first ∧
      ord.Pairwise (fun a b => a.1.endStep ≤ b.1.endStep) ∧ r.pcraster ne = .ok files ∧ files.length = ord.length ∧
      ∀ (j : Nat) s v (lo hi : ℚ), ord[j]? = some (s, v) →
        (∀ p ∈ row, v.masked p.1 = false ∧
          ∃ q : ℚ, (convertedField mv f v).data p.1 = .fin q ∧ lo ≤ q ∧ q ≤ hi) →
        ∃ (name : Str) (cells : Fin k → Num) (x : ℚ), files[j]? = some (name, cells) ∧ cells c = .fin x ∧
          lo ≤ x ∧ x ≤ hi := by
  obtain ⟨ord, files, h1, h2, h3, h4, h5⟩ := plain_run ne r f mv hmv hconv hone hfit hagg
  refine ⟨ord, files, h1, h2, h3, h4, fun j s v lo hi hj hv => ?_⟩
  have hb := mean_bounds hw (x := fun i => toRat ((convertedField mv f v).data i)) (lo := lo) (hi := hi) (by
    intro p hp
    obtain ⟨-, q, hq, hq1, hq2⟩ := hv p hp
    rw [hq]
    exact ⟨hq1, hq2⟩)
  refine ⟨_, _, _, h5 j s v hj, ?_, hb.1, hb.2⟩
  rw [hcut, hcorr]
  change shown r.mask r.mvClone (cellOf r.table r.mvOut (convertedField mv f v) c) c = _
  rw [cell_entry _ _ (convertedField mv f v) _ _ hrow (fun p hp => (hv p hp).1),
    row_finite (fun p hp => (hv p hp).2.imp fun q hq => hq.1), shown_fin _ _ _ _ hin]

/-- **C129.** An average run on one grid (no half weights, cut-off or correction): a cell that is a mean of source points
stays, in every map, between any bounds of the converted values of all messages at these points (masks do not matter:
the averages carry none). -/
theorem average_within (ne : NumExpr) (r : RunIn n m k) (f : Num → Num) (mv : ℚ) (hmv : r.ctrl.msgs.mv = .fin mv)
    (hconv : Means ne r.conversion f) (hone : r.ctrl.msgs.changeResolutionStep = none) (hfit : Fits r.table n)
    (hagg : r.ctrl.aggregate = true) (a : Int) (ha : r.ctrl.aggrStep = some a) (hpos : 0 < a)
    (htype : r.ctrl.aggrType = "average") (hst : r.ctrl.stepType ≠ "accum") (hh : r.ctrl.halfweights = false)
    (h0 : r.ctrl.start ≠ 0) (hex : ∃ u, Avail r.ctrl.msgs.first u ∧ r.ctrl.end_ ≤ u)
    (hcut : cuts r = false) (hcorr : r.height = none) (c : Fin k)
    (hin : outside r.mask c = false) (row : List (Fin n × ℚ)) (hrow : EntryOf r.table c row) (hw : MeanWeights row)
    (lo hi : ℚ) (hv : ∀ e ∈ r.ctrl.msgs.first, ∀ p ∈ row,
      ∃ q : ℚ, (convertedField mv f e.2).data p.1 = .fin q ∧ lo ≤ q ∧ q ≤ hi) :
    ∃ files, r.pcraster ne = .ok files ∧
      (∀ j : Nat, j < files.length ↔ r.ctrl.start + j * a ≤ r.ctrl.end_) ∧
      ∀ file ∈ files, ∃ x : ℚ, file.2 c = .fin x ∧ lo ≤ x ∧ x ≤ hi := by
  obtain ⟨files, h1, h2, h3⟩ := average_run ne r f mv hmv hconv hone hfit hagg a ha hpos htype hst hh h0 hex
  refine ⟨files, h1, h2, fun file hfile => ?_⟩
  obtain ⟨j, hj⟩ := List.getElem?_of_mem hfile
  have hjl : j < files.length := (List.getElem?_eq_some_iff.1 hj).1
  obtain ⟨F, D, hF, hD, hfj⟩ := h3 j _ rfl ((h2 j).1 hjl)
  rw [hj] at hfj
  have hfj := Option.some.inj hfj
  rw [hfj]
  -- the hourly fields are finite and bounded
  have hB : ∀ p ∈ row, ∀ x : Nat, x < a.toNat → ∃ q : ℚ,
      (convertedField mv f (F (r.ctrl.start + j * a - a + 1 + (x : Int)))).data p.1 = .fin q ∧ lo ≤ q ∧ q ≤ hi := by
    intro p hp x hx
    obtain ⟨u, -, hu⟩ := hF (r.ctrl.start + j * a - a + 1 + (x : Int)) (by omega) (by omega)
    unfold fieldAt at hu
    obtain ⟨e, he, hee⟩ := Option.map_eq_some_iff.1 hu
    have hem : e ∈ r.ctrl.msgs.first := (List.mem_filter.1 (List.mem_of_getLast? he)).1
    rw [← hee]
    exact hv e hem p hp
  have hDq : ∀ p ∈ row, ∃ q : ℚ, D.data p.1 = .fin q ∧ lo ≤ q ∧ q ≤ hi := by
    intro p hp
    have ha0 : (0 : ℚ) < (a : ℚ) := by exact_mod_cast hpos
    have key : ∀ l : List Nat, (∀ x ∈ l, x < a.toNat) → ∃ s : ℚ,
        (l.map fun (x : Nat) => (convertedField mv f (F (r.ctrl.start + j * a - a + 1 + (x : Int)))).data p.1).sum = .fin s ∧
          (l.length : ℚ) * lo ≤ s ∧ s ≤ (l.length : ℚ) * hi := by
      intro l
      induction l with
      | nil => intro _; exact ⟨0, rfl, by simp, by simp⟩
      | cons x l ih =>
        intro hl
        obtain ⟨s, e, s1, s2⟩ := ih fun y hy => hl y (List.mem_cons_of_mem _ hy)
        obtain ⟨q, hq, q1, q2⟩ := hB p hp x (hl x List.mem_cons_self)
        refine ⟨q + s, ?_, ?_, ?_⟩
        · rw [List.map_cons, List.sum_cons, e, hq, Num.fin_add]
        · rw [List.length_cons]; push_cast; linarith
        · rw [List.length_cons]; push_cast; linarith
    obtain ⟨s, e, s1, s2⟩ := key (List.range a.toNat) fun x hx => List.mem_range.1 hx
    rw [List.length_range] at s1 s2
    have hcast : ((a.toNat : Nat) : ℚ) = (a : ℚ) := by
      have : ((a.toNat : Nat) : Int) = a := Int.toNat_of_nonneg (by omega)
      exact_mod_cast congrArg (Int.cast (R := ℚ)) this
    rw [hcast] at s1 s2
    refine ⟨s / a, ?_, ?_, ?_⟩
    · rw [(hD p.1).1, e, Num.ofInt_def, Num.fin_div_of_ne _ ha0.ne']
    · rw [le_div_iff₀ ha0]; linarith
    · rw [div_le_iff₀ ha0]; linarith
  have hb := mean_bounds hw (x := fun i => toRat (D.data i)) (lo := lo) (hi := hi) (by
    intro p hp
    obtain ⟨q, hq, hq1, hq2⟩ := hDq p hp
    rw [hq]
    exact ⟨hq1, hq2⟩)
  refine ⟨_, ?_, hb.1, hb.2⟩
  dsimp only
  rw [hcut, hcorr]
  change shown r.mask r.mvClone (cellOf r.table r.mvOut D c) c = _
  rw [cell_entry _ _ _ _ _ hrow (fun p _ => (hD p.1).2),
    row_finite (fun p hp => (hDq p hp).imp fun q hq => hq.1), shown_fin _ _ _ _ hin]

/-- **C130.** With the cut-off of negative values no map of a run on one grid without correction shows a negative number
in a cell whose table entry has weights that are not negative: it is the clone's missing value, or at least 0. -/
theorem cutoff_nonneg (ne : NumExpr) (r : RunIn n m k) (f : Num → Num) (mv : ℚ) (hmv : r.ctrl.msgs.mv = .fin mv)
    (hconv : Means ne r.conversion f) (hone : r.ctrl.msgs.changeResolutionStep = none) (hfit : Fits r.table n)
    (hcut : cuts r = true) (hcorr : r.height = none) (c : Fin k) (row : List (Fin n × ℚ))
    (hrow : EntryOf r.table c row) (hw : ∀ p ∈ row, 0 ≤ p.2) (files : List (Str × (Fin k → Num)))
    (hrun : r.pcraster ne = .ok files) :
    ∀ file ∈ files, file.2 c = r.mvClone ∨ ∃ x : ℚ, file.2 c = .fin x ∧ 0 ≤ x := by
  rw [pcraster_single ne r f mv hmv hconv hone hfit] at hrun
  cases h1 : (convertedCtrl mv f r.ctrl).firstPart with
  | error e => rw [h1] at hrun; cases hrun
  | ok v1 =>
    rw [h1] at hrun
    dsimp only at hrun
    have hrun := Except.ok.inj hrun
    intro file hfile
    rw [← hrun] at hfile
    obtain ⟨q, -, rfl⟩ := List.mem_map.1 hfile
    dsimp only
    rw [hcut, hcorr]
    change shown r.mask r.mvClone (cellOf r.table r.mvOut (Spec.cutField true q.1.2) c) c = _ ∨ ∃ x : ℚ, shown _ _ _ c = _ ∧ _
    rw [cell_entry _ _ _ _ _ hrow (fun p _ => rfl)]
    have hcut0 : ∀ i, (Spec.cutField true q.1.2).data i = .nan ∨ ∃ x : ℚ, (Spec.cutField true q.1.2).data i = .fin x ∧ 0 ≤ x := by
      intro i
      unfold Spec.cutField
      rw [if_pos rfl]
      dsimp only
      cases hd : q.1.2.data i with
      | nan => left; rfl
      | fin x =>
        right
        by_cases hx : x < 0
        · refine ⟨0, ?_, le_refl _⟩
          rw [if_pos (by rw [Num.zero_def]; exact decide_eq_true hx)]
          rfl
        · exact ⟨x, if_neg (by rw [Num.zero_def]; exact fun h => hx (of_decide_eq_true h)), not_lt.1 hx⟩
    generalize (Spec.cutField true q.1.2).data = D at hcut0
    have hs : (row.map fun p => Num.fin p.2 * D p.1).sum = .nan ∨
        ∃ x : ℚ, (row.map fun p => Num.fin p.2 * D p.1).sum = .fin x ∧ 0 ≤ x := by
      clear hrow
      induction row with
      | nil => right; exact ⟨0, rfl, le_refl _⟩
      | cons p l ih =>
        rw [List.map_cons, List.sum_cons]
        rcases ih fun q hq => hw q (List.mem_cons_of_mem _ hq) with e | ⟨x, e, hx⟩
        · left; rw [e, Num.add_nan]
        · rw [e]
          rcases hcut0 p.1 with e' | ⟨y, e', hy⟩
          · left; rw [e', Num.mul_nan, Num.nan_add]
          · right
            refine ⟨p.2 * y + x, ?_, add_nonneg (mul_nonneg (hw p List.mem_cons_self) hy) hx⟩
            rw [e', Num.fin_mul, Num.fin_add]
    rcases hs with e | ⟨x, e, hx⟩
    · left
      rw [e]
      unfold shown
      rw [if_pos (.inr rfl)]
    · by_cases ho : outside r.mask c = true
      · left
        unfold shown
        rw [if_pos (.inl ho)]
      · right
        rw [Bool.not_eq_true] at ho
        rw [e]
        exact ⟨x, shown_fin _ _ _ _ ho, hx⟩

/-- **C130.** Amounts that never decrease give maps without negative numbers: an accumulation run on one grid without
correction whose interval bounds are available (a missing step 0 counts as zero), for a cell whose table entry has
weights that are not negative, with unmasked converted values at its points that are finite, not negative, and do not
decrease from step to step. -/
theorem accumulation_nonneg (ne : NumExpr) (r : RunIn n m k) (f : Num → Num) (mv : ℚ) (hmv : r.ctrl.msgs.mv = .fin mv)
    (hconv : Means ne r.conversion f) (hone : r.ctrl.msgs.changeResolutionStep = none) (hfit : Fits r.table n)
    (hagg : r.ctrl.aggregate = true) (a : Int) (ha : r.ctrl.aggrStep = some a) (hpos : 0 < a)
    (htype : r.ctrl.aggrType = "accumulation") (hne : r.ctrl.msgs.first ≠ [])
    (hcur : ∀ t, InRange (firstEnd r.ctrl.start a) r.ctrl.end_ a t →
      Avail r.ctrl.msgs.first t ∧ (t - a = 0 ∨ Avail r.ctrl.msgs.first (t - a)))
    (hunit : 0 ≤ r.ctrl.unitTime) (hcorr : r.height = none) (c : Fin k) (hin : outside r.mask c = false)
    (row : List (Fin n × ℚ)) (hrow : EntryOf r.table c row) (hw : ∀ p ∈ row, 0 ≤ p.2)
    (hun : ∀ e ∈ r.ctrl.msgs.first, ∀ p ∈ row, e.2.masked p.1 = false)
    (q : Fin n → Int → ℚ) (hq : ∀ e ∈ r.ctrl.msgs.first, ∀ p ∈ row,
      (convertedField mv f e.2).data p.1 = .fin (q p.1 e.1.endStep))
    (hq0 : ∀ p ∈ row, ∀ t, 0 ≤ q p.1 t) (hmono : ∀ p ∈ row, ∀ s t, s ≤ t → q p.1 s ≤ q p.1 t) :
    ∃ files, r.pcraster ne = .ok files ∧
      (∀ j : Nat, j < files.length ↔ firstEnd r.ctrl.start a + j * a ≤ r.ctrl.end_) ∧
      ∀ file ∈ files, ∃ x : ℚ, file.2 c = .fin x ∧ 0 ≤ x := by
  obtain ⟨files, h1, h2, h3⟩ := accumulation_run ne r f mv hmv hconv hone hfit hagg a ha hpos htype hne hcur
  refine ⟨files, h1, h2, fun file hfile => ?_⟩
  obtain ⟨j, hj⟩ := List.getElem?_of_mem hfile
  have hjl : j < files.length := (List.getElem?_eq_some_iff.1 hj).1
  obtain ⟨vc, vp, D, hvc, hvp, hD, hfj⟩ := h3 j _ rfl ((h2 j).1 hjl)
  rw [hj] at hfj
  have hfj := Option.some.inj hfj
  rw [hfj]
  have mem : ∀ t v, fieldAt r.ctrl.msgs.first t = some v → ∃ e ∈ r.ctrl.msgs.first, e.1.endStep = t ∧ e.2 = v := by
    intro t v h
    unfold fieldAt at h
    obtain ⟨e, he, hee⟩ := Option.map_eq_some_iff.1 h
    have hf := List.mem_filter.1 (List.mem_of_getLast? he)
    exact ⟨e, hf.1, of_decide_eq_true hf.2, hee⟩
  have ha0 : (0 : ℚ) < (a : ℚ) := by exact_mod_cast hpos
  have hu0 : (0 : ℚ) ≤ (r.ctrl.unitTime : ℚ) := by exact_mod_cast hunit
  have hDq : ∀ p ∈ row, (∃ x : ℚ, D.data p.1 = .fin x ∧ 0 ≤ x) ∧ D.masked p.1 = false := by
    intro p hp
    obtain ⟨e, he, het, rfl⟩ := mem _ _ hvc
    have hc := hq e he p hp
    rw [het] at hc
    have hbase : ∃ y : ℚ, vp.data p.1 = .fin y ∧ y ≤ q p.1 (firstEnd r.ctrl.start a + j * a) ∧ vp.masked p.1 = false := by
      split at hvp
      · exact ⟨0, (hvp p.1).1, hq0 p hp _, (hvp p.1).2⟩
      · obtain ⟨w, hw', rfl⟩ := hvp
        obtain ⟨e', he', het', rfl⟩ := mem _ _ hw'
        have hc' := hq e' he' p hp
        rw [het'] at hc'
        exact ⟨_, hc', hmono p hp _ _ (by omega), hun e' he' p hp⟩
    obtain ⟨y, hy, hyq, hym⟩ := hbase
    refine ⟨⟨(q p.1 (firstEnd r.ctrl.start a + j * a) - y) * r.ctrl.unitTime / a, ?_, ?_⟩, ?_⟩
    · rw [(hD p.1).1, hc, hy, Num.fin_sub, Num.ofInt_def, Num.fin_mul, Num.ofInt_def, Num.fin_div_of_ne _ ha0.ne']
    · exact div_nonneg (mul_nonneg (by linarith) hu0) ha0.le
    · rw [(hD p.1).2, hym]
  -- the cut-off changes nothing at these points
  have hcutD : ∀ p ∈ row, (∃ x : ℚ, (Spec.cutField (cuts r) D).data p.1 = .fin x ∧ 0 ≤ x) ∧
      (Spec.cutField (cuts r) D).masked p.1 = false := by
    intro p hp
    obtain ⟨⟨x, hx, hx0⟩, hm⟩ := hDq p hp
    cases hc : cuts r with
    | false => exact ⟨⟨x, hx, hx0⟩, hm⟩
    | true =>
      refine ⟨⟨x, ?_, hx0⟩, rfl⟩
      unfold Spec.cutField
      rw [if_pos rfl]
      dsimp only
      rw [hx, if_neg (by rw [Num.zero_def]; exact fun h => absurd (of_decide_eq_true h) (not_lt.2 hx0))]
  have hb := nonneg_sum hw (x := fun i => toRat ((Spec.cutField (cuts r) D).data i)) (by
    intro p hp
    obtain ⟨x, hx, hx0⟩ := (hcutD p hp).1
    rw [hx]
    exact hx0)
  refine ⟨_, ?_, hb⟩
  dsimp only
  rw [hcorr]
  change shown r.mask r.mvClone (cellOf r.table r.mvOut (Spec.cutField (cuts r) D) c) c = _
  rw [cell_entry _ _ _ _ _ hrow (fun p hp => (hcutD p hp).2),
    row_finite (fun p hp => (hcutD p hp).1.imp fun x hx => hx.1), shown_fin _ _ _ _ hin]

/-! ## Concrete cases -/

/-- The cell between the two points of `Demo.runAcc`. -/
example : EntryOf (n := 2) Demo.runAcc.table 0 [(0, 1 / 2), (1, 1 / 2)] ∧
    MeanWeights ([(0, 1 / 2), (1, 1 / 2)] : List (Fin 2 × ℚ)) := by
  refine ⟨rfl, ?_, ?_⟩
  · decide +kernel
  · decide +kernel

/-- Its converted values (10 and 14 at step 12, 4 and 6 at step 6) do not decrease. -/
example : ∃ q : Fin 2 → Int → ℚ, (∀ e ∈ Demo.runAcc.ctrl.msgs.first, ∀ p ∈ ([(0, 1 / 2), (1, 1 / 2)] : List (Fin 2 × ℚ)),
      (convertedField 9999 (fun a => a * .fin 2) e.2).data p.1 = .fin (q p.1 e.1.endStep)) ∧
    (∀ i t, 0 ≤ q i t) ∧ ∀ i s t, s ≤ t → q i s ≤ q i t := by
  refine ⟨fun i t => if t < 12 then (if i = 0 then 4 else 6) else (if i = 0 then 10 else 14), ?_, ?_, ?_⟩
  · decide +kernel
  · intro i t
    dsimp only
    split <;> split <;> norm_num
  · intro i s t h
    dsimp only
    split <;> split <;> split <;> first | omega | norm_num

end PyG2P
