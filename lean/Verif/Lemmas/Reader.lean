import Verif.Model.Reader
import Verif.Lemmas.Py

/-! # Lemmas about the reader model -/

namespace PyG2P.Reader
open PyG2P
variable {α : Type}

theorem scanLoop_pos (f : Nat → Bool) (cs : List Nat) (w : World) :
    (scanLoop f cs w).1.map (·.2) = cs.filter f := by
  induction cs generalizing w with
  | nil => rfl
  | cons c cs ih =>
    unfold scanLoop
    by_cases h : f c = true
    · simp [h, ih]
    · simp only [h, if_false, Bool.false_eq_true]
      rw [ih, List.filter_cons_of_neg (by simpa using h)]

/-- Consistent handle bookkeeping: nothing bad happened, every handle given out is either live or was
released exactly once. -/
structure Ok (w : World) : Prop where
  notBad : w.bad = false
  liveND : w.live.Nodup
  relND : w.rel.Nodup
  disj : ∀ h ∈ w.live, h ∉ w.rel
  liveLt : ∀ h ∈ w.live, h < w.next
  relLt : ∀ h ∈ w.rel, h < w.next
  all : ∀ h < w.next, h ∈ w.live ∨ h ∈ w.rel

theorem ok_empty : Ok ⟨0, [], [], false⟩ :=
  ⟨rfl, by simp, by simp, by simp, by simp, by simp, by simp⟩

theorem ok_alloc {w : World} (h : Ok w) : Ok w.alloc := by
  refine ⟨h.notBad, ?_, h.relND, ?_, ?_, ?_, ?_⟩
  · exact List.nodup_cons.2 ⟨fun hm => absurd (h.liveLt _ hm) (lt_irrefl _), h.liveND⟩
  · intro x hx hr
    rcases List.mem_cons.1 hx with rfl | hx
    · exact absurd (h.relLt _ hr) (lt_irrefl _)
    · exact h.disj x hx hr
  · intro x hx
    change x < w.next + 1
    rcases List.mem_cons.1 hx with rfl | hx
    · omega
    · have := h.liveLt x hx; omega
  · intro x hx; have := h.relLt x hx; change x < w.next + 1; omega
  · intro x hx
    have hx : x < w.next + 1 := hx
    by_cases he : x = w.next
    · subst he; exact Or.inl (by simp [World.alloc])
    · rcases h.all x (by omega) with h1 | h1
      · exact Or.inl (List.mem_cons_of_mem _ h1)
      · exact Or.inr h1

theorem ok_release {w : World} (h : Ok w) {x : Nat} (hx : x ∈ w.live) : Ok (w.release x) := by
  unfold World.release
  rw [if_pos hx]
  refine ⟨h.notBad, h.liveND.erase x, ?_, ?_, ?_, ?_, ?_⟩
  · exact List.nodup_cons.2 ⟨h.disj x hx, h.relND⟩
  · intro y hy hr
    have hy' := (List.Nodup.mem_erase_iff h.liveND).1 hy
    rcases List.mem_cons.1 hr with rfl | hr
    · exact hy'.1 rfl
    · exact h.disj y hy'.2 hr
  · intro y hy; exact h.liveLt y (List.mem_of_mem_erase hy)
  · intro y hy
    rcases List.mem_cons.1 hy with rfl | hy
    · exact h.liveLt _ hx
    · exact h.relLt y hy
  · intro y hy
    rcases h.all y hy with h1 | h1
    · by_cases hxy : y = x
      · subst hxy; exact Or.inr (by simp)
      · exact Or.inl ((List.Nodup.mem_erase_iff h.liveND).2 ⟨hxy, h1⟩)
    · exact Or.inr (List.mem_cons_of_mem _ h1)

theorem live_release {w : World} {x : Nat} (hx : x ∈ w.live) : (w.release x).live = w.live.erase x := by
  unfold World.release; rw [if_pos hx]

theorem release_alloc_live (w : World) (hok : Ok w) : ((w.alloc).release w.next).live = w.live := by
  have h1 : w.next ∈ w.alloc.live := by simp [World.alloc]
  rw [live_release h1]
  simp [World.alloc]

/-- A scan adds exactly the returned handles to the live ones. -/
theorem scanLoop_world (f : Nat → Bool) (cs : List Nat) (w : World) (hok : Ok w) :
    Ok (scanLoop f cs w).2 ∧
    ((scanLoop f cs w).1.map (·.1)).Nodup ∧
    (∀ h ∈ (scanLoop f cs w).1.map (·.1), w.next ≤ h ∧ h ∉ w.live) ∧
    (scanLoop f cs w).2.live.Perm ((scanLoop f cs w).1.map (·.1) ++ w.live) := by
  induction cs generalizing w with
  | nil => exact ⟨hok, by simp [scanLoop], by simp [scanLoop], by simp [scanLoop]⟩
  | cons c cs ih =>
    unfold scanLoop
    dsimp only
    by_cases hf : f c = true
    · rw [if_pos hf]
      obtain ⟨h1, h2, h3, h4⟩ := ih w.alloc (ok_alloc hok)
      dsimp only
      refine ⟨h1, ?_, ?_, ?_⟩
      · rw [List.map_cons]
        refine List.nodup_cons.2 ⟨fun hm => ?_, h2⟩
        have := (h3 _ hm).1
        simp [World.alloc] at this
      · intro h hm
        rw [List.map_cons] at hm
        rcases List.mem_cons.1 hm with rfl | hm
        · exact ⟨le_refl _, fun hl => absurd (hok.liveLt _ hl) (lt_irrefl _)⟩
        · obtain ⟨a, b⟩ := h3 h hm
          refine ⟨?_, fun hl => b (List.mem_cons_of_mem _ hl)⟩
          simp [World.alloc] at a; omega
      · refine h4.trans ?_
        rw [List.map_cons, List.cons_append]
        exact List.perm_middle
    · rw [if_neg hf]
      have hx : w.next ∈ w.alloc.live := by simp [World.alloc]
      obtain ⟨h1, h2, h3, h4⟩ := ih (w.alloc.release w.next) (ok_release (ok_alloc hok) hx)
      refine ⟨h1, h2, ?_, ?_⟩
      · intro h hm
        obtain ⟨a, b⟩ := h3 h hm
        rw [release_alloc_live w hok] at b
        refine ⟨?_, b⟩
        have : (w.alloc.release w.next).next = w.next + 1 := by
          unfold World.release; rw [if_pos hx]; rfl
        omega
      · rw [release_alloc_live w hok] at h4; exact h4

theorem useAll_eq (w : World) (g : List (Nat × Nat)) (h : ∀ p ∈ g, p.1 ∈ w.live) : useAll w g = w := by
  unfold useAll
  induction g with
  | nil => rfl
  | cons p g ih =>
    rw [List.foldl_cons]
    have : w.use p.1 = w := by unfold World.use; rw [if_pos (h p (by simp))]
    rw [this]
    exact ih (fun q hq => h q (by simp [hq]))

theorem releaseAll_ok (w : World) (hs : List Nat) (hok : Ok w) (hnd : hs.Nodup)
    (hsub : ∀ h ∈ hs, h ∈ w.live) :
    Ok (releaseAll w hs) ∧ (∀ h, h ∈ (releaseAll w hs).live ↔ h ∈ w.live ∧ h ∉ hs) ∧
      (releaseAll w hs).next = w.next := by
  unfold releaseAll
  induction hs generalizing w with
  | nil => exact ⟨hok, by simp, rfl⟩
  | cons x hs ih =>
    rw [List.foldl_cons]
    have hx := hsub x (by simp)
    obtain ⟨hx', hnd'⟩ := List.nodup_cons.1 hnd
    obtain ⟨h1, h2, h3⟩ := ih (w.release x) (ok_release hok hx) hnd' (by
      intro h hm
      rw [live_release hx]
      refine (List.Nodup.mem_erase_iff hok.liveND).2 ⟨?_, hsub h (by simp [hm])⟩
      rintro rfl; exact hx' hm)
    refine ⟨h1, ?_, ?_⟩
    · intro h
      rw [h2, live_release hx, List.Nodup.mem_erase_iff hok.liveND]
      simp only [List.mem_cons, not_or]
      constructor
      · rintro ⟨⟨a, b⟩, c⟩; exact ⟨b, a, c⟩
      · rintro ⟨b, a, c⟩; exact ⟨⟨a, b⟩, c⟩
    · rw [h3]; unfold World.release; rw [if_pos hx]

/-- One scan of a reader: new handles, live, nothing else touched. -/
theorem scan_world (file : List (GMsg α)) (r : Reader) (kw : Kwargs) (hok : Ok r.w) :
    (∃ e, scan file r kw = (.error e, r)) ∨
    ∃ g r', scan file r kw = (.ok g, r') ∧ Ok r'.w ∧ (g.map (·.1)).Nodup ∧
      (∀ h ∈ g.map (·.1), h ∉ r.w.live) ∧ r'.w.live.Perm (g.map (·.1) ++ r.w.live) ∧
      r'.selected = r.selected ∧ r'.main = r.main ∧ r'.ext = r.ext ∧ r'.src = srcAfter file r.src ∧
      (r.src = .closed → g = []) ∧ (∀ p ∈ g, p.2 < file.length) ∧
      r'.stepGrib = r.stepGrib ∧ r'.stepGrib2 = r.stepGrib2 ∧ r'.changeStepAt = r.changeStepAt := by
  unfold scan
  cases hn : Dict.get? kw "shortName".toList with
  | none => exact Or.inl ⟨.keyError, rfl⟩
  | some c =>
    right
    obtain ⟨h1, h2, h3, h4⟩ := scanLoop_world (matchAt file kw)
      (visited file r.src kw (shortNames c)) r.w hok
    refine ⟨_, _, rfl, h1, h2, fun h hm => (h3 h hm).2, h4, rfl, rfl, rfl, rfl, ?_, ?_, rfl, rfl, rfl⟩
    · intro hc; rw [hc]; rfl
    · intro p hp
      have : p.2 ∈ (visited file r.src kw (shortNames c)).filter (matchAt file kw) := by
        rw [← scanLoop_pos _ _ r.w]; exact List.mem_map_of_mem hp
      have := (List.mem_filter.1 this).2
      unfold matchAt at this
      by_contra hlt
      rw [List.getElem?_eq_none (by omega)] at this
      cases this

theorem getGids_world (file : List (GMsg α)) (r : Reader) (kw : Kwargs) (hok : Ok r.w) :
    ∃ res r', getGids file r kw = (res, r') ∧ Ok r'.w ∧
      r'.selected = r.selected ∧ r'.main = r.main ∧ r'.ext = r.ext ∧
      (r.src = .closed ↔ r'.src = .closed) ∧
      (∀ e, res = .error e → r'.w.live.Perm r.w.live) ∧
      (∀ g, res = .ok g → (g.map (·.1)).Nodup ∧ (∀ h ∈ g.map (·.1), h ∉ r.w.live) ∧
        r'.w.live.Perm (g.map (·.1) ++ r.w.live) ∧ (r.src = .closed → g = []) ∧
        ∀ p ∈ g, p.2 < file.length) := by
  have hsrc : ∀ s : Source, (s = .closed ↔ srcAfter file s = .closed) := by
    intro s; cases s <;> simp [srcAfter]
  unfold getGids
  rcases scan_world file r kw hok with ⟨e, he⟩ | ⟨g, r1, hg, h1, h2, h3, h4, h5, h6, h7, h8, h9, h10, -⟩
  · rw [he]
    exact ⟨_, _, rfl, hok, rfl, rfl, rfl, Iff.rfl, fun _ _ => List.Perm.refl _, fun g hg => by cases hg⟩
  · rw [hg]
    dsimp only
    by_cases hc : g.length = 0 ∧ excludesZero kw = true
    · rw [if_pos hc]
      have hg0 : g = [] := List.length_eq_zero_iff.1 hc.1
      rw [hg0] at h4
      rcases scan_world file r1 (relaxed kw) h1 with
        ⟨e, he⟩ | ⟨g', r2, hg', k1, k2, k3, k4, k5, k6, k7, k8, k9, k10, -⟩
      · rw [he]
        refine ⟨_, _, rfl, h1, h5, h6, h7, by rw [h8]; exact hsrc _, fun _ _ => h4, fun g hg => by cases hg⟩
      · rw [hg']
        refine ⟨_, _, rfl, k1, k5.trans h5, k6.trans h6, k7.trans h7, ?_, (fun e he => by cases he), ?_⟩
        · rw [k8, h8]; exact (hsrc _).trans (hsrc _)
        · intro g'' hg''; cases hg''
          refine ⟨k2, ?_, ?_, ?_, k10⟩
          · intro h hm hl
            exact k3 h hm (h4.mem_iff.2 (by simpa using hl))
          · exact k4.trans (List.Perm.append_left _ (by simpa using h4))
          · intro hcl; exact k9 (by rw [h8, hcl]; rfl)
    · rw [if_neg hc]
      refine ⟨_, _, rfl, h1, h5, h6, h7, by rw [h8]; exact hsrc _, (fun e he => by cases he), ?_⟩
      intro g' hg'; cases hg'
      exact ⟨h2, h3, h4, h9, h10⟩

end PyG2P.Reader
