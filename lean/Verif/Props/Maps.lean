import Verif.Model.Maps
import Verif.Props.TableIds
import Verif.Props.Correction
import Verif.Props.Writers

/-! # C104-C108 — target maps, DEM, clone maps and the coordinates of the output -/

namespace PyG2P

namespace Spec

/-- The names of the coordinate variables: `lat`/`lon`, or `y`/`x` in a file without `lon`. -/
def latName (f : NcFile) : Str := if "lon".toList ∈ Dict.keys f then "lat".toList else "y".toList

/-- see `latName`. -/
def lonName (f : NcFile) : Str := if "lon".toList ∈ Dict.keys f then "lon".toList else "x".toList

/-- The number that a coordinate variable `c` holds for cell `(i, j)` of the variable `v`: the one at the index
of the cell along the dimension of `c`. -/
def coordOf (v c : NcVar) (i j : Nat) : Option ℚ :=
  match v.dims, c.dims with
  | [(a, _), (b, _)], [(d, _)] => if d = a then c.coords[i]? else if d = b then c.coords[j]? else none
  | _, _ => none

/-- A file with exactly one variable `v` of two or more dimensions and coordinate variables `la`, `lo` with `R`
latitudes along the dimension `dy` and `C` longitudes along `dx`. -/
structure MapWith (f : NcFile) (v la lo : NcVar) (dy dx : Str) (R C : Nat) : Prop where
  main : ∃ n, f.filter (fun p => decide (2 ≤ p.2.dims.length)) = [(n, v)]
  lat : Dict.get? f (latName f) = some la
  lon : Dict.get? f (lonName f) = some lo
  latDims : la.dims = [(dy, R)]
  lonDims : lo.dims = [(dx, C)]
  ne : dy ≠ dx
  latLen : la.cells.length = R
  lonLen : lo.cells.length = C
  rows : 2 ≤ R
  cols : 2 ≤ C

/-- Cell `(i, j)` of a grid. -/
def at2 {α : Type} (g : List (List α)) (i j : Nat) : Option α := (g[i]?).bind fun r => r[j]?

/-- A grid of `R` rows and `C` columns. -/
def Shape {α : Type} (g : List (List α)) (R C : Nat) : Prop := g.length = R ∧ ∀ r ∈ g, r.length = C

/-- the smallest number of a list. -/
def IsMin (l : List ℚ) (m : ℚ) : Prop := m ∈ l ∧ ∀ x ∈ l, m ≤ x

/-- the largest number of a list. -/
def IsMax (l : List ℚ) (m : ℚ) : Prop := m ∈ l ∧ ∀ x ∈ l, x ≤ m

end Spec

open Spec

theorem foldl_isMin (l : List ℚ) (a : ℚ) : IsMin (a :: l) (l.foldl min a) := by
  induction l generalizing a with
  | nil => exact ⟨List.mem_singleton.2 rfl, fun x hx => by rw [List.mem_singleton.1 hx]; exact le_refl a⟩
  | cons b l ih =>
    obtain ⟨h1, h2⟩ := ih (min a b)
    refine ⟨?_, ?_⟩
    · rcases List.mem_cons.1 h1 with h | h
      · rw [List.foldl_cons, h]
        rcases min_choice a b with e | e
        · rw [e]; exact List.mem_cons_self
        · rw [e]; exact List.mem_cons_of_mem _ List.mem_cons_self
      · exact List.mem_cons_of_mem _ (List.mem_cons_of_mem _ h)
    · intro x hx
      have h0 := h2 (min a b) List.mem_cons_self
      rcases List.mem_cons.1 hx with rfl | hx
      · exact le_trans h0 (min_le_left _ _)
      · rcases List.mem_cons.1 hx with rfl | hx
        · exact le_trans h0 (min_le_right _ _)
        · exact h2 x (List.mem_cons_of_mem _ hx)

theorem foldl_isMax (l : List ℚ) (a : ℚ) : IsMax (a :: l) (l.foldl max a) := by
  induction l generalizing a with
  | nil => exact ⟨List.mem_singleton.2 rfl, fun x hx => by rw [List.mem_singleton.1 hx]; exact le_refl a⟩
  | cons b l ih =>
    obtain ⟨h1, h2⟩ := ih (max a b)
    refine ⟨?_, ?_⟩
    · rcases List.mem_cons.1 h1 with h | h
      · rw [List.foldl_cons, h]
        rcases max_choice a b with e | e
        · rw [e]; exact List.mem_cons_self
        · rw [e]; exact List.mem_cons_of_mem _ List.mem_cons_self
      · exact List.mem_cons_of_mem _ (List.mem_cons_of_mem _ h)
    · intro x hx
      have h0 := h2 (max a b) List.mem_cons_self
      rcases List.mem_cons.1 hx with rfl | hx
      · exact le_trans (le_max_left _ _) h0
      · rcases List.mem_cons.1 hx with rfl | hx
        · exact le_trans (le_max_right _ _) h0
        · exact h2 x (List.mem_cons_of_mem _ hx)

theorem minOf_ok {l : List ℚ} (h : l ≠ []) : ∃ m, minOf l = .ok m ∧ IsMin l m := by
  cases l with
  | nil => exact absurd rfl h
  | cons a l => exact ⟨_, rfl, foldl_isMin l a⟩

theorem maxOf_ok {l : List ℚ} (h : l ≠ []) : ∃ m, maxOf l = .ok m ∧ IsMax l m := by
  cases l with
  | nil => exact absurd rfl h
  | cons a l => exact ⟨_, rfl, foldl_isMax l a⟩

theorem coords_length (v : NcVar) : v.coords.length = v.cells.length := List.length_map _

theorem two_of_length {α : Type} {l : List α} (h : 2 ≤ l.length) : ∃ a b r, l = a :: b :: r := by
  match l, h with
  | a :: b :: r, _ => exact ⟨a, b, r, rfl⟩

/-- What the reader keeps of a map. -/
theorem reader_of {f : NcFile} {v la lo : NcVar} {dy dx : Str} {R C : Nat} (h : MapWith f v la lo dy dx R C)
    {r c : Str × Nat} (hv : v.dims = [r, c]) :
    ∃ x0 x1 y0 y1 dxv dyv, IsMin lo.coords x0 ∧ IsMax lo.coords x1 ∧ IsMin la.coords y0 ∧ IsMax la.coords y1 ∧
      spacing lo.coords = .ok dxv ∧ spacing la.coords = .ok dyv ∧
      ncReader f = .ok ⟨v, r.2, c.2, la.coords, lo.coords, ⟨x0, y0, dxv, dyv, y0, y1⟩, ⟨x0, y0, dxv, dyv, x0, x1⟩,
        v.mv⟩ := by
  obtain ⟨n, hm⟩ := h.main
  have h2 : 2 ≤ la.coords.length := by rw [coords_length, h.latLen]; exact h.rows
  have h3 : 2 ≤ lo.coords.length := by rw [coords_length, h.lonLen]; exact h.cols
  obtain ⟨ya, yb, yr, hy⟩ := two_of_length h2
  obtain ⟨xa, xb, xr, hx⟩ := two_of_length h3
  obtain ⟨x0, hx0, mx0⟩ := minOf_ok (l := lo.coords) (by rw [hx]; simp)
  obtain ⟨x1, hx1, mx1⟩ := maxOf_ok (l := lo.coords) (by rw [hx]; simp)
  obtain ⟨y0, hy0, my0⟩ := minOf_ok (l := la.coords) (by rw [hy]; simp)
  obtain ⟨y1, hy1, my1⟩ := maxOf_ok (l := la.coords) (by rw [hy]; simp)
  have sx : spacing lo.coords = .ok (xb - xa) := by rw [hx]; rfl
  have sy : spacing la.coords = .ok (yb - ya) := by rw [hy]; rfl
  refine ⟨x0, x1, y0, y1, _, _, mx0, mx1, my0, my1, sx, sy, ?_⟩
  have e1 : findMainVar f = .ok v := by unfold findMainVar; rw [hm]
  have e2 : Dict.getE f (lonName f) = .ok lo := by unfold Dict.getE; rw [h.lon]
  have e3 : Dict.getE f (latName f) = .ok la := by unfold Dict.getE; rw [h.lat]
  have e4 : (if "lon".toList ∈ Dict.keys f then ("lat".toList, "lon".toList) else ("y".toList, "x".toList)) =
      (latName f, lonName f) := by
    unfold latName lonName
    by_cases hl : "lon".toList ∈ Dict.keys f
    · rw [if_pos hl, if_pos hl, if_pos hl]
    · rw [if_neg hl, if_neg hl, if_neg hl]
  obtain ⟨r1, r2⟩ := r
  obtain ⟨c1, c2⟩ := c
  unfold ncReader
  rw [e1]
  dsimp only [bind, Except.bind]
  rw [hv]
  dsimp only
  rw [e4]
  dsimp only
  rw [e2]
  dsimp only
  rw [hx0]
  dsimp only
  rw [e3]
  dsimp only
  rw [hy0]
  dsimp only
  rw [sx]
  dsimp only
  rw [sy]
  dsimp only
  rw [hy1]
  dsimp only
  rw [hx1]

theorem bget_long {α : Type} {l : List α} (h : 2 ≤ l.length) (i : Nat) : bget l i = l[i]? := by
  unfold bget
  rw [if_neg (by omega)]

/-- **C104.** The coordinates of the target cells. The netCDF map must have exactly one variable of two or more
dimensions; its dimensions are those of the latitudes and the longitudes, in either order, in the second one with
different lengths. Then either every cell has the latitude and the longitude that the file gives it, or the
dimensions are in the wrong order and the map is refused. -/
theorem netcdf_target_partial {f : NcFile} {v la lo : NcVar} {dy dx : Str} {R C : Nat}
    (h : MapWith f v la lo dy dx R C) (hv : v.dims = [(dy, R), (dx, C)] ∨ (v.dims = [(dx, C), (dy, R)] ∧ R ≠ C)) :
    (v.dims = [(dy, R), (dx, C)] ∧ ∃ t, latLong true (.nc f) (.nc f) = .ok t ∧ Shape t.lats R C ∧ Shape t.lons R C ∧
      t.mv = .fin (9969209968386869 * 10 ^ 21) ∧ ∀ i j, i < R → j < C →
        at2 t.lats i j = (coordOf v la i j).map Num.fin ∧ at2 t.lons i j = (coordOf v lo i j).map Num.fin ∧
        (at2 t.lats i j).isSome ∧ (at2 t.lons i j).isSome) ∨
    (v.dims = [(dx, C), (dy, R)] ∧ latLong true (.nc f) (.nc f) = .error .valueError) := by
  have hR := h.rows
  have hC := h.cols
  have ll : la.coords.length = R := by rw [coords_length, h.latLen]
  have lo' : lo.coords.length = C := by rw [coords_length, h.lonLen]
  rcases hv with hv | ⟨hv, hne⟩
  · left
    refine ⟨hv, ?_⟩
    obtain ⟨x0, x1, y0, y1, dxv, dyv, -, -, -, -, -, -, hr⟩ := reader_of h hv
    unfold latLong
    dsimp only
    rw [if_neg (by decide), hr]
    dsimp only [bind, Except.bind]
    unfold NcReader.latLon
    dsimp only [bind, Except.bind]
    rw [ll, lo']
    have b1 : broadcast R R = .ok R := by unfold broadcast; rw [if_pos rfl]
    have b2 : broadcast C C = .ok C := by unfold broadcast; rw [if_pos rfl]
    rw [b1, b2]
    dsimp only
    refine ⟨_, rfl, ?_, ?_, rfl, ?_⟩
    · refine ⟨by simp, ?_⟩
      intro r hr
      simp only [List.mem_map] at hr
      obtain ⟨_, ⟨_, _, rfl⟩, rfl⟩ := hr
      simp
    · refine ⟨by simp, ?_⟩
      intro r hr
      simp only [List.mem_map] at hr
      obtain ⟨_, ⟨_, _, rfl⟩, rfl⟩ := hr
      simp
    · intro i j hi hj
      have ci : coordOf v la i j = la.coords[i]? := by
        unfold coordOf
        rw [hv, h.latDims]
        dsimp only
        rw [if_pos rfl]
      have cj : coordOf v lo i j = lo.coords[j]? := by
        unfold coordOf
        rw [hv, h.lonDims]
        dsimp only
        rw [if_neg (fun e => h.ne e.symm), if_pos rfl]
      have gi : la.coords[i]? = some (la.coords[i]'(by omega)) := List.getElem?_eq_getElem _
      have gj : lo.coords[j]? = some (lo.coords[j]'(by omega)) := List.getElem?_eq_getElem _
      have a1 : at2 (List.map (fun x => List.map Num.fin x) (List.map (fun i => List.map
          (fun _ => (bget la.coords i).getD 0) (List.range C)) (List.range R))) i j = some (Num.fin (la.coords[i]'(by omega))) := by
        unfold at2
        simp only [List.getElem?_map, List.getElem?_range hi, Option.map_some, Option.bind_some,
          List.getElem?_range hj, bget_long (l := la.coords) (by omega), gi, Option.getD_some]
      have a2 : at2 (List.map (fun x => List.map Num.fin x) (List.map (fun _ => List.map
          (fun j => (bget lo.coords j).getD 0) (List.range C)) (List.range R))) i j = some (Num.fin (lo.coords[j]'(by omega))) := by
        unfold at2
        simp only [List.getElem?_map, List.getElem?_range hi, Option.map_some, Option.bind_some,
          List.getElem?_range hj, bget_long (l := lo.coords) (by omega), gj, Option.getD_some]
      rw [a1, a2, ci, cj, gi, gj]
      exact ⟨rfl, rfl, rfl, rfl⟩
  · right
    refine ⟨hv, ?_⟩
    obtain ⟨x0, x1, y0, y1, dxv, dyv, -, -, -, -, -, -, hr⟩ := reader_of h hv
    unfold latLong
    dsimp only
    rw [if_neg (by decide), hr]
    dsimp only [bind, Except.bind]
    unfold NcReader.latLon
    dsimp only [bind, Except.bind]
    rw [ll]
    have b1 : broadcast R C = .error .valueError := by
      unfold broadcast
      rw [if_neg hne, if_neg (by omega), if_neg (by omega)]
    rw [b1]

namespace Demo

/-- a coordinate variable. -/
def coordVar (d : Str) (l : List ℚ) : NcVar := ⟨[(d, l.length)], l.map Num.fin, none, none, none⟩

/-- A map with two latitudes, three longitudes and one field. -/
def ncMap : NcFile :=
  [("lat".toList, coordVar "lat".toList [60, 119/2]), ("lon".toList, coordVar "lon".toList [10, 21/2, 11]),
   ("area".toList, ⟨[("lat".toList, 2), ("lon".toList, 3)], [1, 1, 0, 1, 0, 1], none, some 0, none⟩)]

/-- The same field with its dimensions exchanged. -/
def ncTurned : NcFile :=
  [("lat".toList, coordVar "lat".toList [60, 119/2]), ("lon".toList, coordVar "lon".toList [10, 21/2, 11]),
   ("area".toList, ⟨[("lon".toList, 3), ("lat".toList, 2)], [1, 1, 1, 0, 0, 1], none, some 0, none⟩)]

/-- A square field with its dimensions exchanged. -/
def ncSquare : NcFile :=
  [("lat".toList, coordVar "lat".toList [60, 119/2]), ("lon".toList, coordVar "lon".toList [10, 21/2]),
   ("area".toList, ⟨[("lon".toList, 2), ("lat".toList, 2)], [1, 1, 1, 0], none, some 0, none⟩)]

theorem ncMap_with : MapWith ncMap ⟨[("lat".toList, 2), ("lon".toList, 3)], [1, 1, 0, 1, 0, 1], none, some 0, none⟩
    (coordVar "lat".toList [60, 119/2]) (coordVar "lon".toList [10, 21/2, 11]) "lat".toList "lon".toList 2 3 :=
  ⟨⟨"area".toList, rfl⟩, rfl, rfl, rfl, rfl, by decide, rfl, rfl, le_refl 2, by decide⟩

theorem ncTurned_with : MapWith ncTurned ⟨[("lon".toList, 3), ("lat".toList, 2)], [1, 1, 1, 0, 0, 1], none, some 0, none⟩
    (coordVar "lat".toList [60, 119/2]) (coordVar "lon".toList [10, 21/2, 11]) "lat".toList "lon".toList 2 3 :=
  ⟨⟨"area".toList, rfl⟩, rfl, rfl, rfl, rfl, by decide, rfl, rfl, le_refl 2, by decide⟩

theorem ncSquare_with : MapWith ncSquare ⟨[("lon".toList, 2), ("lat".toList, 2)], [1, 1, 1, 0], none, some 0, none⟩
    (coordVar "lat".toList [60, 119/2]) (coordVar "lon".toList [10, 21/2]) "lat".toList "lon".toList 2 2 :=
  ⟨⟨"area".toList, rfl⟩, rfl, rfl, rfl, rfl, by decide, rfl, rfl, le_refl 2, by decide⟩

end Demo

/-- The map of the example: cell (1, 2) is at 59.5 N, 11 E; with the dimensions exchanged it is refused. -/
example : (∃ t, latLong true (.nc Demo.ncMap) (.nc Demo.ncMap) = .ok t ∧ at2 t.lats 1 2 = some (.fin (119/2)) ∧
    at2 t.lons 1 2 = some (.fin 11)) ∧ latLong true (.nc Demo.ncTurned) (.nc Demo.ncTurned) = .error .valueError := by
  constructor
  · rcases netcdf_target_partial Demo.ncMap_with (Or.inl rfl) with ⟨-, t, ht, -, -, -, hc⟩ | ⟨h, -⟩
    · obtain ⟨h1, h2, -, -⟩ := hc 1 2 (by decide) (by decide)
      exact ⟨t, ht, h1, h2⟩
    · exact absurd h (by decide)
  · rcases netcdf_target_partial Demo.ncTurned_with (Or.inr ⟨rfl, by decide⟩) with ⟨h, -⟩ | ⟨-, h⟩
    · exact absurd h (by decide)
    · exact h

/-- **C104** (violated). A square map whose field is stored with the longitudes first is not refused: cell (0, 1),
at 10 E and 59.5 N in the file, is taken to be at 60 N and 10.5 E. -/
theorem netcdf_target_turned : ∃ (f : NcFile) (v la lo : NcVar) (dy dx : Str) (t : Target),
    MapWith f v la lo dy dx 2 2 ∧ v.dims = [(dx, 2), (dy, 2)] ∧ latLong true (.nc f) (.nc f) = .ok t ∧
    coordOf v la 0 1 = some (119/2) ∧ coordOf v lo 0 1 = some 10 ∧
    at2 t.lats 0 1 = some (.fin 60) ∧ at2 t.lons 0 1 = some (.fin (21/2)) := by
  refine ⟨_, _, _, _, _, _, ⟨[[.fin 60, .fin 60], [.fin (119/2), .fin (119/2)]],
    [[.fin 10, .fin (21/2)], [.fin 10, .fin (21/2)]], f8Fill,
    targetId ⟨10, 119/2, 1/2, -1/2, 119/2, 60⟩ ⟨10, 119/2, 1/2, -1/2, 10, 21/2⟩⟩, Demo.ncSquare_with, rfl, ?_, rfl, rfl, rfl, rfl⟩
  decide +kernel

/-! ## C105 — maps turned upside down -/

theorem isMin_reverse {l : List ℚ} {a b : ℚ} (h : IsMin l a) (h' : IsMin l.reverse b) : a = b :=
  le_antisymm (h.2 b (List.mem_reverse.1 h'.1)) (h'.2 a (List.mem_reverse.2 h.1))

theorem isMax_reverse {l : List ℚ} {a b : ℚ} (h : IsMax l a) (h' : IsMax l.reverse b) : a = b :=
  le_antisymm (h'.2 a (List.mem_reverse.2 h.1)) (h.2 b (List.mem_reverse.1 h'.1))

theorem truncInt_small {x : ℚ} (h : |x| < 1) : Str.truncInt x = 0 := by
  obtain ⟨h1, -⟩ := truncInt_spec x
  have h2 : |(Str.truncInt x : ℚ)| < 1 := lt_of_le_of_lt h1 h
  have h3 : |Str.truncInt x| < 1 := by exact_mod_cast h2
  exact Int.abs_lt_one_iff.1 h3

theorem truncInt_pos {x : ℚ} (h : 1 ≤ x) : 1 ≤ Str.truncInt x := by
  unfold Str.truncInt
  rw [if_neg (by linarith)]
  exact Int.le_floor.2 (by exact_mod_cast h)

theorem truncInt_neg {x : ℚ} (h : x ≤ -1) : Str.truncInt x ≤ -1 := by
  unfold Str.truncInt
  rw [if_pos (by linarith)]
  have : (1 : Int) ≤ ⌊-x⌋ := Int.le_floor.2 (by push_cast; linarith)
  omega

/-- the two readers of a map and the map turned upside down. -/
theorem flipped_readers {f g : NcFile} {v la lo v' la' lo' : NcVar} {dy dx : Str} {R C : Nat}
    (hf : MapWith f v la lo dy dx R C) (hg : MapWith g v' la' lo' dy dx R C) (hv : v.dims = [(dy, R), (dx, C)])
    (hv' : v'.dims = [(dy, R), (dx, C)]) (hlon : lo'.coords = lo.coords) (hlat : la'.coords = la.coords.reverse) :
    ∃ x0 x1 y0 y1 w s s', spacing la.coords = .ok s ∧ spacing la.coords.reverse = .ok s' ∧
      ncReader f = .ok ⟨v, R, C, la.coords, lo.coords, ⟨x0, y0, w, s, y0, y1⟩, ⟨x0, y0, w, s, x0, x1⟩, v.mv⟩ ∧
      ncReader g = .ok ⟨v', R, C, la.coords.reverse, lo.coords, ⟨x0, y0, w, s', y0, y1⟩, ⟨x0, y0, w, s', x0, x1⟩, v'.mv⟩ := by
  obtain ⟨x0, x1, y0, y1, w, s, a1, a2, a3, a4, a5, a6, hr⟩ := reader_of hf hv
  obtain ⟨x0', x1', y0', y1', w', s', b1, b2, b3, b4, b5, b6, hr'⟩ := reader_of hg hv'
  rw [hlon] at b1 b2 b5
  rw [hlat] at b3 b4 b6
  have e1 : x0' = x0 := le_antisymm (b1.2 _ a1.1) (a1.2 _ b1.1)
  have e2 : x1' = x1 := le_antisymm (a2.2 _ b2.1) (b2.2 _ a2.1)
  have e3 := isMin_reverse a3 b3
  have e4 := isMax_reverse a4 b4
  have e5 : w' = w := by
    rw [a5] at b5
    injection b5 with b5
    exact b5.symm
  subst e1 e2 e3 e4 e5
  refine ⟨_, _, _, _, _, _, _, a6, b6, hr, ?_⟩
  rw [hr', hlat, hlon]

/-- The rows and identifier of the target of a reader. -/
theorem latLong_id {f : NcFile} {r : NcReader} (h : ncReader f = .ok r) (hl : r.lats.length = r.rows)
    (hc : r.lons.length = r.cols) : ∃ t, latLong true (.nc f) (.nc f) = .ok t ∧ t.id = targetId r.latGeo r.lonGeo := by
  unfold latLong
  dsimp only
  rw [if_neg (by decide), h]
  dsimp only [bind, Except.bind]
  unfold NcReader.latLon
  rw [hl, hc]
  have b : ∀ n, broadcast n n = .ok n := fun n => by unfold broadcast; rw [if_pos rfl]
  rw [b, b]
  exact ⟨_, rfl, rfl⟩

/-- **C105** (violated). A target map and the same map stored upside down have the same identifier as soon as the
rows are less than one degree (or one unit) apart: every table made for one of them is taken for the other, although
cell (i, j) of one is cell (R - 1 - i, j) of the other. -/
theorem flipped_same_id {f g : NcFile} {v la lo v' la' lo' : NcVar} {dy dx : Str} {R C : Nat}
    (hf : MapWith f v la lo dy dx R C) (hg : MapWith g v' la' lo' dy dx R C) (hv : v.dims = [(dy, R), (dx, C)])
    (hv' : v'.dims = [(dy, R), (dx, C)]) (hlon : lo'.coords = lo.coords) (hlat : la'.coords = la.coords.reverse)
    (h1 : ∀ s, spacing la.coords = .ok s → |s| < 1) (h2 : ∀ s, spacing la.coords.reverse = .ok s → |s| < 1) :
    ∃ t t', latLong true (.nc f) (.nc f) = .ok t ∧ latLong true (.nc g) (.nc g) = .ok t' ∧
      (∀ grid suffix, tableId grid t.id suffix = tableId grid t'.id suffix) ∧
      ∀ i j, i < R → j < C → at2 t'.lats i j = at2 t.lats (R - 1 - i) j ∧ at2 t'.lons i j = at2 t.lons i j := by
  have ll : la.coords.length = R := by rw [coords_length, hf.latLen]
  have lo0 : lo.coords.length = C := by rw [coords_length, hf.lonLen]
  obtain ⟨x0, x1, y0, y1, w, s, s', hs, hs', hr, hr'⟩ := flipped_readers hf hg hv hv' hlon hlat
  obtain ⟨t, ht, it⟩ := latLong_id hr ll lo0
  obtain ⟨t', ht', it'⟩ := latLong_id hr' (by rw [List.length_reverse]; exact ll) lo0
  have id : t.id = t'.id := by
    rw [it, it']
    unfold targetId MapGeo.identifier
    dsimp only
    rw [truncInt_small (h1 s hs), truncInt_small (h2 s' hs')]
  refine ⟨t, t', ht, ht', fun grid suffix => by rw [id], ?_⟩
  intro i j hi hj
  rcases netcdf_target_partial hf (Or.inl hv) with ⟨-, u, hu, -, -, -, c⟩ | ⟨e, -⟩
  swap
  · rw [hv] at e
    injection e with e _
    injection e with e _
    exact absurd e hf.ne
  rcases netcdf_target_partial hg (Or.inl hv') with ⟨-, u', hu', -, -, -, c'⟩ | ⟨e, -⟩
  swap
  · rw [hv'] at e
    injection e with e _
    injection e with e _
    exact absurd e hg.ne
  rw [ht] at hu
  rw [ht'] at hu'
  injection hu with hu
  injection hu' with hu'
  subst hu hu'
  obtain ⟨d1, d2, -, -⟩ := c' i j hi hj
  obtain ⟨d3, -, -, -⟩ := c (R - 1 - i) j (by omega) hj
  obtain ⟨-, d4, -, -⟩ := c i j hi hj
  rw [d1, d2, d3, d4]
  have k1 : coordOf v' la' i j = la.coords.reverse[i]? := by
    unfold coordOf
    rw [hv', hg.latDims, hlat]
    dsimp only
    rw [if_pos rfl]
  have k2 : coordOf v la (R - 1 - i) j = la.coords[R - 1 - i]? := by
    unfold coordOf
    rw [hv, hf.latDims]
    dsimp only
    rw [if_pos rfl]
  have k3 : coordOf v' lo' i j = coordOf v lo i j := by
    unfold coordOf
    rw [hv', hv, hf.lonDims, hg.lonDims, hlon]
  rw [k1, k2, k3, List.getElem?_reverse (by omega), ll]
  exact ⟨rfl, rfl⟩

/-- **C105** (the part that holds). With rows one or more degrees (or units) apart no table of one of the two maps
has the identifier of a table of the other. -/
theorem flipped_id_partial {f g : NcFile} {v la lo v' la' lo' : NcVar} {dy dx : Str} {R C : Nat}
    (hf : MapWith f v la lo dy dx R C) (hg : MapWith g v' la' lo' dy dx R C) (hv : v.dims = [(dy, R), (dx, C)])
    (hv' : v'.dims = [(dy, R), (dx, C)]) (hlon : lo'.coords = lo.coords) (hlat : la'.coords = la.coords.reverse)
    (h : ∀ s s', spacing la.coords = .ok s → spacing la.coords.reverse = .ok s' → s ≤ -1 ∧ 1 ≤ s' ∨ 1 ≤ s ∧ s' ≤ -1) :
    ∃ t t', latLong true (.nc f) (.nc f) = .ok t ∧ latLong true (.nc g) (.nc g) = .ok t' ∧
      ∀ (k k' : GeoKeys) (mode mode' x x' : Str), '$' ∉ k.gridType → '$' ∉ k'.gridType → tableSuffix mode = some x →
        tableSuffix mode' = some x' → tableId k.buildId t.id x ≠ tableId k'.buildId t'.id x' := by
  have ll : la.coords.length = R := by rw [coords_length, hf.latLen]
  have lo0 : lo.coords.length = C := by rw [coords_length, hf.lonLen]
  obtain ⟨x0, x1, y0, y1, w, s, s', hs, hs', hr, hr'⟩ := flipped_readers hf hg hv hv' hlon hlat
  obtain ⟨t, ht, it⟩ := latLong_id hr ll lo0
  obtain ⟨t', ht', it'⟩ := latLong_id hr' (by rw [List.length_reverse]; exact ll) lo0
  refine ⟨t, t', ht, ht', ?_⟩
  intro k k' mode mode' x x' hk hk' hx hx' e
  rw [it, it'] at e
  obtain ⟨-, -, ⟨-, -, -, hp, -⟩, -⟩ := table_id_partial k k' hk hk' _ _ _ _ mode mode' x x' hx hx' e
  dsimp only at hp
  rcases h s s' hs hs' with ⟨a, b⟩ | ⟨a, b⟩
  · have := truncInt_neg a
    have := truncInt_pos b
    omega
  · have := truncInt_pos a
    have := truncInt_neg b
    omega

namespace Demo

/-- The map of the example upside down. -/
def ncFlipped : NcFile :=
  [("lat".toList, coordVar "lat".toList [119/2, 60]), ("lon".toList, coordVar "lon".toList [10, 21/2, 11]),
   ("area".toList, ⟨[("lat".toList, 2), ("lon".toList, 3)], [1, 0, 1, 1, 1, 0], none, some 0, none⟩)]

theorem ncFlipped_with : MapWith ncFlipped ⟨[("lat".toList, 2), ("lon".toList, 3)], [1, 0, 1, 1, 1, 0], none, some 0, none⟩
    (coordVar "lat".toList [119/2, 60]) (coordVar "lon".toList [10, 21/2, 11]) "lat".toList "lon".toList 2 3 :=
  ⟨⟨"area".toList, rfl⟩, rfl, rfl, rfl, rfl, by decide, rfl, rfl, le_refl 2, by decide⟩

/-- A coarse map and the same upside down. -/
def ncCoarse : NcFile :=
  [("lat".toList, coordVar "lat".toList [60, 58]), ("lon".toList, coordVar "lon".toList [10, 12]),
   ("area".toList, ⟨[("lat".toList, 2), ("lon".toList, 2)], [1, 1, 0, 1], none, some 0, none⟩)]

/-- see `ncCoarse`. -/
def ncCoarse' : NcFile :=
  [("lat".toList, coordVar "lat".toList [58, 60]), ("lon".toList, coordVar "lon".toList [10, 12]),
   ("area".toList, ⟨[("lat".toList, 2), ("lon".toList, 2)], [0, 1, 1, 1], none, some 0, none⟩)]

theorem ncCoarse_with : MapWith ncCoarse ⟨[("lat".toList, 2), ("lon".toList, 2)], [1, 1, 0, 1], none, some 0, none⟩
    (coordVar "lat".toList [60, 58]) (coordVar "lon".toList [10, 12]) "lat".toList "lon".toList 2 2 :=
  ⟨⟨"area".toList, rfl⟩, rfl, rfl, rfl, rfl, by decide, rfl, rfl, le_refl 2, by decide⟩

theorem ncCoarse'_with : MapWith ncCoarse' ⟨[("lat".toList, 2), ("lon".toList, 2)], [0, 1, 1, 1], none, some 0, none⟩
    (coordVar "lat".toList [58, 60]) (coordVar "lon".toList [10, 12]) "lat".toList "lon".toList 2 2 :=
  ⟨⟨"area".toList, rfl⟩, rfl, rfl, rfl, rfl, by decide, rfl, rfl, le_refl 2, by decide⟩

end Demo

example : ∃ t t', latLong true (.nc Demo.ncMap) (.nc Demo.ncMap) = .ok t ∧
    latLong true (.nc Demo.ncFlipped) (.nc Demo.ncFlipped) = .ok t' ∧
    (∀ grid suffix, tableId grid t.id suffix = tableId grid t'.id suffix) ∧
    ∀ i j, i < 2 → j < 3 → at2 t'.lats i j = at2 t.lats (2 - 1 - i) j ∧ at2 t'.lons i j = at2 t.lons i j :=
  flipped_same_id Demo.ncMap_with Demo.ncFlipped_with rfl rfl rfl rfl
    (by
      intro s hs
      have e : s = -1/2 := by
        injection hs with hs
        rw [← hs]
        norm_num
      rw [e, abs_lt]
      norm_num)
    (by
      intro s hs
      have e : s = 1/2 := by
        injection hs with hs
        rw [← hs]
        norm_num
      rw [e, abs_lt]
      norm_num)

example : ∃ t t', latLong true (.nc Demo.ncCoarse) (.nc Demo.ncCoarse) = .ok t ∧
    latLong true (.nc Demo.ncCoarse') (.nc Demo.ncCoarse') = .ok t' ∧
      ∀ (k k' : GeoKeys) (mode mode' x x' : Str), '$' ∉ k.gridType → '$' ∉ k'.gridType → tableSuffix mode = some x →
        tableSuffix mode' = some x' → tableId k.buildId t.id x ≠ tableId k'.buildId t'.id x' :=
  flipped_id_partial Demo.ncCoarse_with Demo.ncCoarse'_with rfl rfl rfl rfl
    (by
      intro s s' hs hs'
      injection hs with hs
      injection hs' with hs'
      left
      rw [← hs, ← hs']
      norm_num)

/-! ## C106 — coordinates of the output file -/

namespace Spec

/-- The coordinate variables of the netCDF output place every cell where the interpolation placed it. -/
def CoordsKept (latMap lonMap : MapFile) (R C : Nat) : Prop :=
  ∃ t g w, latLong true latMap lonMap = .ok t ∧ writerLatLon true latMap lonMap = .ok g ∧ writtenCoords g.1 g.2 = .ok w ∧
    w.1.length = R ∧ w.2.length = C ∧
    ∀ i j, i < R → j < C → w.1[i]? = at2 t.lats i j ∧ w.2[j]? = at2 t.lons i j

/-- A pair of PCRaster maps that is a regular grid: one latitude per row, one longitude per column, no cell missing. -/
structure Regular (a b : PcrMap) (R C : Nat) : Prop where
  shapeA : Shape a.rows R C
  shapeB : Shape b.rows R C
  lat : ∀ i j, i < R → j < C → at2 a.rows i j = at2 a.rows i 0
  lon : ∀ i j, i < R → j < C → at2 b.rows i j = at2 b.rows 0 j
  latMv : ∀ i j x, at2 a.rows i j = some x → x.neb a.mv = true
  lonMv : ∀ i j x, at2 b.rows i j = some x → x.neb a.mv = true

end Spec

/-- The first numbers of the rows. -/
theorem firsts_ok : ∀ (g : List (List Num)), (∀ r ∈ g, r ≠ []) →
    ∃ w, g.mapM firstCell = (.ok w : Py (List Num)) ∧ w.length = g.length ∧ ∀ i, w[i]? = at2 g i 0
  | [], _ => ⟨[], rfl, rfl, fun i => by simp [at2]⟩
  | r :: g, h => by
    obtain ⟨w, hw, hl, hi⟩ := firsts_ok g fun r hr => h r (List.mem_cons_of_mem _ hr)
    cases r with
    | nil => exact absurd rfl (h [] List.mem_cons_self)
    | cons x r =>
      refine ⟨x :: w, ?_, by simp [hl], ?_⟩
      · rw [List.mapM_cons, hw]
        rfl
      · intro i
        cases i with
        | zero => simp [at2]
        | succ i =>
          have := hi i
          simpa [at2] using this

theorem written_ok {lats lons : List (List Num)} {R C : Nat} (ha : Shape lats R C) (hb : Shape lons R C)
    (hR : 0 < R) (hC : 0 < C) :
    ∃ w, writtenCoords lats lons = .ok w ∧ w.1.length = R ∧ w.2.length = C ∧
      (∀ i, w.1[i]? = at2 lats i 0) ∧ ∀ j, w.2[j]? = at2 lons 0 j := by
  obtain ⟨w, hw, hl, hi⟩ := firsts_ok lats fun r hr e => by
    have := ha.2 r hr
    rw [e] at this
    exact absurd this (by simp; omega)
  cases lons with
  | nil => exact absurd hb.1 (by simp; omega)
  | cons row rest =>
    refine ⟨(w, row), ?_, by rw [hl]; exact ha.1, hb.2 row List.mem_cons_self, hi, ?_⟩
    · unfold writtenCoords
      dsimp only [bind, Except.bind]
      rw [hw]
    · intro j
      simp [at2]

/-- **C106** (netCDF targets). -/
theorem written_coords_netcdf {f : NcFile} {v la lo : NcVar} {dy dx : Str} {R C : Nat}
    (h : MapWith f v la lo dy dx R C) (hv : v.dims = [(dy, R), (dx, C)]) : CoordsKept (.nc f) (.nc f) R C := by
  have hR := h.rows
  have hC := h.cols
  rcases netcdf_target_partial h (Or.inl hv) with ⟨-, t, ht, s1, s2, -, c⟩ | ⟨e, -⟩
  swap
  · rw [hv] at e
    injection e with e _
    injection e with e _
    exact absurd e h.ne
  have hg : writerLatLon true (.nc f) (.nc f) = .ok (t.lats, t.lons) := by
    unfold latLong at ht
    unfold writerLatLon
    dsimp only at ht ⊢
    rw [if_neg (by decide)] at ht ⊢
    cases hr : ncReader f with
    | error e =>
      rw [hr] at ht
      exact absurd ht (by intro e; cases e)
    | ok r =>
      rw [hr] at ht
      dsimp only [bind, Except.bind] at ht ⊢
      cases hg : r.latLon with
      | error e =>
        rw [hg] at ht
        exact absurd ht (by intro e; cases e)
      | ok g =>
        rw [hg] at ht
        injection ht with ht
        rw [← ht]
  obtain ⟨w, hw, l1, l2, w1, w2⟩ := written_ok s1 s2 (by omega) (by omega)
  refine ⟨t, _, w, ht, hg, hw, l1, l2, ?_⟩
  intro i j hi hj
  obtain ⟨c1, c2, -, -⟩ := c i j hi hj
  obtain ⟨d1, -, -, -⟩ := c i 0 hi (by omega)
  obtain ⟨-, d2, -, -⟩ := c 0 j (by omega) hj
  have k1 : coordOf v la i j = coordOf v la i 0 := by
    unfold coordOf
    rw [hv, h.latDims]
    dsimp only
    rw [if_pos rfl, if_pos rfl]
  have k2 : coordOf v lo i j = coordOf v lo 0 j := by
    unfold coordOf
    rw [hv, h.lonDims]
    dsimp only
    have hn : ¬ dx = dy := fun e => h.ne e.symm
    rw [if_neg hn, if_neg hn]
  rw [w1, w2, c1, c2, d1, d2, k1, k2]
  exact ⟨rfl, rfl⟩

example : CoordsKept (.nc Demo.ncMap) (.nc Demo.ncMap) 2 3 := written_coords_netcdf Demo.ncMap_with rfl

theorem clean_id {rows : List (List Num)} {mv : Num} (h : ∀ i j x, at2 rows i j = some x → x.neb mv = true) :
    rows.map (·.map fun x => if x.neb mv then x else .nan) = rows := by
  conv_rhs => rw [← List.map_id rows]
  apply List.map_congr_left
  intro r hr
  obtain ⟨i, hi⟩ := List.getElem?_of_mem hr
  conv_rhs => rw [id, ← List.map_id r]
  apply List.map_congr_left
  intro x hx
  obtain ⟨j, hj⟩ := List.getElem?_of_mem hx
  have := h i j x (by unfold at2; rw [hi]; exact hj)
  rw [if_pos this]
  rfl

/-- **C106** (PCRaster targets: the part that holds). For a regular grid without missing cells the coordinate variables
of the output place every cell where it is. -/
theorem written_coords_partial {a b : PcrMap} {R C : Nat} (h : Regular a b R C) (hR : 0 < R) (hC : 0 < C) :
    CoordsKept (.pcr a) (.pcr b) R C := by
  obtain ⟨w, hw, l1, l2, w1, w2⟩ := written_ok h.shapeA h.shapeB hR hC
  refine ⟨_, (a.rows, b.rows), w, rfl, ?_, hw, l1, l2, ?_⟩
  · unfold writerLatLon
    dsimp only
    rw [clean_id h.latMv, clean_id h.lonMv]
  · intro i j hi hj
    rw [w1, w2]
    exact ⟨(h.lat i j hi hj).symm, (h.lon i j hi hj).symm⟩

namespace Demo

/-- The latitudes of a small regular grid, missing value -9999. -/
def pcrLat : PcrMap := ⟨⟨10, 60, 1/2, 1/2, 119/2, 60⟩, [[60, 60], [.fin (119/2), .fin (119/2)]], .fin (-9999)⟩

/-- Its longitudes. -/
def pcrLon : PcrMap := ⟨⟨10, 60, 1/2, 1/2, 10, 21/2⟩, [[10, .fin (21/2)], [10, .fin (21/2)]], .fin (-9999)⟩

/-- The latitudes with the first cell of the second row missing. -/
def pcrLatGap : PcrMap := ⟨⟨10, 60, 1/2, 1/2, 119/2, 60⟩, [[60, 60], [.fin (-9999), .fin (119/2)]], .fin (-9999)⟩

theorem at2_two {α : Type} {p q r s : α} {i j : Nat} {x : α} (h : at2 [[p, q], [r, s]] i j = some x) :
    x = p ∨ x = q ∨ x = r ∨ x = s := by
  match i, j with
  | 0, 0 => left; injection h with h; exact h.symm
  | 0, 1 => right; left; injection h with h; exact h.symm
  | 1, 0 => right; right; left; injection h with h; exact h.symm
  | 1, 1 => right; right; right; injection h with h; exact h.symm
  | 0, j + 2 => exact absurd h (by intro e; cases e)
  | 1, j + 2 => exact absurd h (by intro e; cases e)
  | i + 2, j => exact absurd h (by intro e; cases e)

theorem pcr_regular : Regular pcrLat pcrLon 2 2 where
  shapeA := ⟨rfl, by decide⟩
  shapeB := ⟨rfl, by decide⟩
  lat := by
    intro i j hi hj
    match i, j, hi, hj with
    | 0, 0, _, _ => rfl
    | 0, 1, _, _ => rfl
    | 1, 0, _, _ => rfl
    | 1, 1, _, _ => rfl
  lon := by
    intro i j hi hj
    match i, j, hi, hj with
    | 0, 0, _, _ => rfl
    | 0, 1, _, _ => rfl
    | 1, 0, _, _ => rfl
    | 1, 1, _, _ => rfl
  latMv := by
    intro i j x h
    rcases at2_two h with rfl | rfl | rfl | rfl <;> decide +kernel
  lonMv := by
    intro i j x h
    rcases at2_two h with rfl | rfl | rfl | rfl <;> decide +kernel

end Demo

example : CoordsKept (.pcr Demo.pcrLat) (.pcr Demo.pcrLon) 2 2 :=
  written_coords_partial Demo.pcr_regular (by decide) (by decide)

/-- **C106** (violated). A cell missing in the first column of the latitude map: the latitude written for its whole row
is NaN, also for cells with values. -/
theorem written_coords_gap : ∃ a b : PcrMap, Shape a.rows 2 2 ∧ Shape b.rows 2 2 ∧
    at2 a.rows 1 1 = some (.fin (119/2)) ∧
    ∃ g w, writerLatLon true (.pcr a) (.pcr b) = .ok g ∧ writtenCoords g.1 g.2 = .ok w ∧ w.1[1]? = some .nan := by
  refine ⟨Demo.pcrLatGap, Demo.pcrLon, ⟨rfl, by decide⟩, ⟨rfl, by decide⟩, rfl,
    ([[60, 60], [.nan, .fin (119/2)]], [[10, .fin (21/2)], [10, .fin (21/2)]]), ([60, .nan], [10, .fin (21/2)]), ?_, ?_, rfl⟩
  · decide +kernel
  · decide +kernel

/-! ## C107 — missing cells of a netCDF DEM -/

namespace Spec

/-- netCDF4: a cell is missing when it equals `missing_value` or `_FillValue`, or, without `_FillValue`, the default
fill value `d` of the type. -/
def NcMissing (v : NcVar) (d x : Num) : Prop := some x = v.missing ∨ some x = v.fill ∨ (v.fill = none ∧ x = d)

end Spec

/-- **C107** (the part that holds). The DEM has the attribute `missing_value` or `_FillValue`, both equal if both are
given, a number, and the default fill value `d` of the type does not occur as a height unless it is that number; or the
type is an integer type without attributes. Then exactly the cells that are missing in the file are left out. -/
theorem dem_missing_partial (v : NcVar) (d : ℚ) (x : Num)
    (h : (∃ q, (v.missing = some (.fin q) ∧ (v.fill = none ∨ v.fill = some (.fin q)) ∨
        v.missing = none ∧ v.fill = some (.fin q)) ∧ (v.fill = none → x = .fin d → d = q)) ∨
      (v.missing = none ∧ v.fill = none ∧ v.intFill = some (.fin d))) :
    x.neb v.mv = false ↔ NcMissing v (.fin d) x := by
  have key : ∀ q : ℚ, x.neb (.fin q) = false ↔ x = .fin q := by
    intro q
    cases x with
    | nan => simp [Num.neb]
    | fin a => simp [Num.neb]
  rcases h with ⟨q, h | h, hd⟩ | ⟨h1, h2, h3⟩
  · obtain ⟨hm, hf⟩ := h
    have e : v.mv = .fin q := by unfold NcVar.mv; rw [hm]
    rw [e, key]
    unfold NcMissing
    rw [hm]
    constructor
    · intro h; left; rw [h]
    · rintro (h | h | ⟨h, h'⟩)
      · injection h
      · rcases hf with hf | hf
        · rw [hf] at h; cases h
        · rw [hf] at h; injection h
      · rw [h', hd h h']
  · obtain ⟨hm, hf⟩ := h
    have e : v.mv = .fin q := by unfold NcVar.mv; rw [hm, hf]
    rw [e, key]
    unfold NcMissing
    rw [hm, hf]
    constructor
    · intro h; right; left; rw [h]
    · rintro (h | h | ⟨h, -⟩)
      · cases h
      · injection h
      · cases h
  · have e : v.mv = .fin d := by unfold NcVar.mv; rw [h1, h2, h3]
    rw [e, key]
    unfold NcMissing
    rw [h1, h2]
    constructor
    · intro h; right; right; exact ⟨rfl, h⟩
    · rintro (h | h | ⟨-, h⟩)
      · cases h
      · cases h
      · exact h

/-- With the correction: a cell whose height is missing in the file gives the missing value. -/
theorem dem_missing_corrected {n : Nat} (v : NcVar) (d : ℚ) (i : Fin n) (formula : NumExpr3) (dem gem p : Arr n)
    (gemMv mv : Num)
    (h : (∃ q, (v.missing = some (.fin q) ∧ (v.fill = none ∨ v.fill = some (.fin q)) ∨
        v.missing = none ∧ v.fill = some (.fin q)) ∧ (v.fill = none → dem.data i = .fin d → d = q)) ∨
      (v.missing = none ∧ v.fill = none ∧ v.intFill = some (.fin d)))
    (hx : NcMissing v (.fin d) (dem.data i)) : (Corrector.correct formula dem gem p v.mv gemMv mv).data i = mv := by
  have := (dem_missing_partial v d (dem.data i) h).2 hx
  unfold Corrector.correct Arr.maskedWhere
  dsimp only
  rw [this, Bool.false_and, Bool.false_and]
  rfl

namespace Demo

/-- A DEM of integer type without attributes. -/
def demInt : NcVar := ⟨[("lat".toList, 2), ("lon".toList, 2)], [10, .fin (-32767), 5, 0], none, none, some (.fin (-32767))⟩

/-- A DEM of floating type without attributes; missing cells hold the default fill value. -/
def demFloat : NcVar := ⟨[("lat".toList, 2), ("lon".toList, 2)], [10, f8Fill, 5, 0], none, none, none⟩

/-- A DEM with two marks for missing cells. -/
def demTwo : NcVar := ⟨[("lat".toList, 2), ("lon".toList, 2)], [10, .fin (-9999), .fin (-1), 0], some (.fin (-9999)), some (.fin (-1)), none⟩

end Demo

example : (Num.fin (-32767)).neb Demo.demInt.mv = false ∧ (10 : Num).neb Demo.demInt.mv = true := by decide +kernel

example : NcMissing Demo.demInt (.fin (-32767)) (.fin (-32767)) :=
  (dem_missing_partial Demo.demInt (-32767) _ (Or.inr ⟨rfl, rfl, rfl⟩)).1 (by decide +kernel)

/-- **C107** (violated). Heights of a floating type without attributes: no cell is ever left out; the missing ones are
used as the height 9.97e36. -/
theorem dem_float_no_attribute (v : NcVar) (h : v.missing = none ∧ v.fill = none ∧ v.intFill = none) (x : Num) :
    x.neb v.mv = true := by
  unfold NcVar.mv
  rw [h.1, h.2.1, h.2.2]
  cases x <;> rfl

/-- **C107** (violated). With both attributes different, cells with `_FillValue` are used as heights. -/
theorem dem_two_marks (v : NcVar) (m q : ℚ) (h : v.missing = some (.fin m)) (hf : v.fill = some (.fin q)) (hne : q ≠ m) :
    NcMissing v f8Fill (.fin q) ∧ (Num.fin q).neb v.mv = true := by
  refine ⟨Or.inr (Or.inl hf.symm), ?_⟩
  unfold NcVar.mv
  rw [h]
  simpa [Num.neb] using hne

example : NcMissing Demo.demTwo f8Fill (.fin (-1)) ∧ (Num.fin (-1)).neb Demo.demTwo.mv = true :=
  dem_two_marks Demo.demTwo (-9999) (-1) rfl rfl (by decide +kernel)

/-- A clone map of floating type without attributes never masks a cell: the netCDF writer refuses every field
(`ValueError`). -/
theorem clone_float_no_attribute {n : Nat} (v : NcVar) (h : v.missing = none ∧ v.fill = none ∧ v.intFill = none)
    (clone : Fin n → Num) (p : Packing) (field : Fin n → Num) :
    ncWrite (cloneMask true clone v.mv) p field = .error .valueError := by
  have e : v.mv = .nan := by unfold NcVar.mv; rw [h.1, h.2.1, h.2.2]
  have hm : cloneMask true clone v.mv = none := by
    unfold cloneMask
    dsimp only
    rw [if_neg]
    rintro ⟨i, hi⟩
    rw [if_pos rfl, e] at hi
    cases hc : clone i <;> rw [hc] at hi <;> cases hi
  rw [hm]
  rfl

/-! ## C108 — maps that cannot be used -/

/-- **C108** (the part that holds). Different files for latitude and longitude with a netCDF map are refused with the
documented code 8400. -/
theorem target_refused_partial (f : NcFile) (lonMap : MapFile) :
    latLong false (.nc f) lonMap = .error (.app 8400) ∧ writerLatLon false (.nc f) lonMap = .error (.app 8400) :=
  ⟨rfl, rfl⟩

/-- **C108** (violated). A file without, or with more than one, variable of two or more dimensions (for example
two-dimensional coordinates, or bounds of the cells) ends in `UnboundLocalError`: neither a documented error nor a
target; whatever else the file contains. -/
theorem target_candidates (f : NcFile)
    (h : (f.filter fun p => decide (2 ≤ p.2.dims.length)).length ≠ 1) :
    latLong true (.nc f) (.nc f) = .error .unboundLocal ∧ readDem (.nc f) = .error .unboundLocal := by
  have e : findMainVar f = .error .unboundLocal := by
    unfold findMainVar
    split
    · rename_i p hp
      rw [hp] at h
      exact absurd rfl h
    · rfl
  have r : ncReader f = .error .unboundLocal := by
    unfold ncReader
    rw [e]
    rfl
  constructor
  · unfold latLong
    dsimp only
    rw [if_neg (by decide), r]
    rfl
  · unfold readDem
    dsimp only
    rw [r]
    rfl

/-- **C108** (violated). A map of one row of cells ends in `IndexError`. -/
theorem target_one_row {f : NcFile} {v la lo : NcVar} {n : Str} {r c : Str × Nat} (hv : v.dims = [r, c])
    (hm : f.filter (fun p => decide (2 ≤ p.2.dims.length)) = [(n, v)]) (hla : Dict.get? f (latName f) = some la)
    (hlo : Dict.get? f (lonName f) = some lo) (h1 : la.cells.length = 1) (h2 : 2 ≤ lo.cells.length) :
    latLong true (.nc f) (.nc f) = .error .indexError := by
  have e1 : findMainVar f = .ok v := by unfold findMainVar; rw [hm]
  have e2 : Dict.getE f (lonName f) = .ok lo := by unfold Dict.getE; rw [hlo]
  have e3 : Dict.getE f (latName f) = .ok la := by unfold Dict.getE; rw [hla]
  have e4 : (if "lon".toList ∈ Dict.keys f then ("lat".toList, "lon".toList) else ("y".toList, "x".toList)) =
      (latName f, lonName f) := by
    unfold latName lonName
    by_cases hl : "lon".toList ∈ Dict.keys f
    · rw [if_pos hl, if_pos hl, if_pos hl]
    · rw [if_neg hl, if_neg hl, if_neg hl]
  rw [← coords_length] at h1 h2
  obtain ⟨xa, xb, xr, hx⟩ := two_of_length h2
  obtain ⟨y, hy⟩ := List.length_eq_one_iff.1 h1
  have hr : ncReader f = .error .indexError := by
    obtain ⟨r1, r2⟩ := r
    obtain ⟨c1, c2⟩ := c
    unfold ncReader
    rw [e1]
    dsimp only [bind, Except.bind]
    rw [hv]
    dsimp only
    rw [e4]
    dsimp only
    rw [e2]
    dsimp only
    rw [hx]
    dsimp only [minOf]
    rw [e3]
    dsimp only
    rw [hy]
    rfl
  unfold latLong
  dsimp only
  rw [if_neg (by decide), hr]
  rfl

namespace Demo

/-- A map with bounds of the cells. -/
def ncBounds : NcFile := ncMap ++ [("lat_bnds".toList, ⟨[("lat".toList, 2), ("bnds".toList, 2)], [60, 60, 60, 60], none, none, none⟩)]

/-- A map of one row. -/
def ncRow : NcFile :=
  [("lat".toList, coordVar "lat".toList [60]), ("lon".toList, coordVar "lon".toList [10, 21/2, 11]),
   ("area".toList, ⟨[("lat".toList, 1), ("lon".toList, 3)], [1, 1, 0], none, some 0, none⟩)]

end Demo

example : latLong true (.nc Demo.ncBounds) (.nc Demo.ncBounds) = .error .unboundLocal :=
  (target_candidates Demo.ncBounds (by decide +kernel)).1

example : latLong true (.nc Demo.ncRow) (.nc Demo.ncRow) = .error .indexError :=
  target_one_row (v := ⟨[("lat".toList, 1), ("lon".toList, 3)], [1, 1, 0], none, some 0, none⟩)
    (la := Demo.coordVar "lat".toList [60]) (lo := Demo.coordVar "lon".toList [10, 21/2, 11]) (n := "area".toList) rfl rfl rfl rfl rfl (by decide)

end PyG2P
