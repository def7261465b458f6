import Verif.Props.TileJoins
import Verif.Props.TileGeometryVoid
import Verif.Props.TileConnectedMore

/-!
C77, continued: tiles with angles, `CubeVoid`, `EllipsVoid` and `Chi`.
-/

set_option linter.unusedSimpArgs false

namespace Splinepy.Tiles

open Spec

/-- No coordinate of a control point of the void is on a side of the cell. -/
def Spec.VoidInside (c : List (List ℝ)) : Prop := ∀ r ∈ c, r.length = 3 ∧ ∀ x ∈ r, 0 < x ∧ x < 1

theorem voidInside_getD {c : List (List ℝ)} {n : ℕ} (h : VoidInside c) (hn : c.length = n) {i axis : ℕ} (hi : i < n) (ha : axis < 3) :
    ¬((c.getD i []).getD axis 0 = 0) ∧ ¬((c.getD i []).getD axis 0 = 1) := by
  subst hn
  have hm : c.getD i [] ∈ c := by rw [List.getD_eq_getElem _ _ hi]; exact List.getElem_mem hi
  obtain ⟨h1, h2⟩ := h _ hm
  have hx : (c.getD i []).getD axis 0 ∈ c.getD i [] := by
    rw [List.getD_eq_getElem (c.getD i []) 0 (by omega)]
    exact List.getElem_mem _
  obtain ⟨h3, h4⟩ := h2 _ hx
  exact ⟨h3.ne', h4.ne⟩

theorem faces_221 (a b c d e f g h i j k l m n o p q r : List ℝ) : patchFaces ⟨[2, 2, 1], [a, b, c, d, e, f, g, h, i, j, k, l, m, n, o, p, q, r]⟩ =
    [[a, d, g, j, m, p], [c, f, i, l, o, r], [a, b, c, j, k, l], [g, h, i, p, q, r], [a, b, c, d, e, f, g, h, i], [j, k, l, m, n, o, p, q, r]] := rfl

theorem faces_212 (a b c d e f g h i j k l m n o p q r : List ℝ) : patchFaces ⟨[2, 1, 2], [a, b, c, d, e, f, g, h, i, j, k, l, m, n, o, p, q, r]⟩ =
    [[a, d, g, j, m, p], [c, f, i, l, o, r], [a, b, c, g, h, i, m, n, o], [d, e, f, j, k, l, p, q, r], [a, b, c, d, e, f], [m, n, o, p, q, r]] := rfl

theorem faces_122 (a b c d e f g h i j k l m n o p q r : List ℝ) : patchFaces ⟨[1, 2, 2], [a, b, c, d, e, f, g, h, i, j, k, l, m, n, o, p, q, r]⟩ =
    [[a, c, e, g, i, k, m, o, q], [b, d, f, h, j, l, n, p, r], [a, b, g, h, m, n], [e, f, k, l, q, r], [a, b, c, d, e, f], [m, n, o, p, q, r]] := rfl

/-- the corners of a side of the unit cube -/
noncomputable def squareSide : ℕ → ℝ → List (List ℝ)
  | 0, v => [[v, 0, 0], [v, 1, 0], [v, 0, 1], [v, 1, 1]]
  | 1, v => [[0, v, 0], [1, v, 0], [0, v, 1], [1, v, 1]]
  | _, v => [[0, 0, v], [1, 0, v], [0, 1, v], [1, 1, v]]

theorem cubeVoid_side (c : List (List ℝ)) (hl : c.length = 8) (h : VoidInside c) (axis : ℕ) (ha : axis < 3) (v : ℝ) (hv : v = 0 ∨ v = 1) :
    SideIs (cubeVoid 0 1 c) axis v [squareSide axis v] := by
  have g : ∀ i < 8, ¬((c.getD i []).getD axis 0 = v) := by
    intro i hi
    rcases hv with rfl | rfl
    · exact (voidInside_getD h hl hi ha).1
    · exact (voidInside_getD h hl hi ha).2
  have g0 := g 0 (by omega)
  have g1 := g 1 (by omega)
  have g2 := g 2 (by omega)
  have g3 := g 3 (by omega)
  have g4 := g 4 (by omega)
  have g5 := g 5 (by omega)
  have g6 := g 6 (by omega)
  have g7 := g 7 (by omega)
  clear g
  unfold cubeVoid
  obtain rfl | rfl | rfl : axis = 0 ∨ axis = 1 ∨ axis = 2 := by omega
  all_goals
    simp only [List.getD_eq_getElem?_getD] at g0 g1 g2 g3 g4 g5 g6 g7
    rcases hv with rfl | rfl <;> refine side_of ?_ ?_
  all_goals
    simp only [row, faces_cons, faces_nil, faces_111, List.cons_append, List.nil_append, List.append_nil]
    simp [onPlane_nil, onPlane_cons, g0, g1, g2, g3, g4, g5, g6, g7, squareSide]

/-- the control points of a side of the unit cube with three rows of three -/
noncomputable def nineSide : ℕ → ℝ → List (List ℝ)
  | 0, v => [[v, 0, 0], [v, 1 / 2, 0], [v, 1, 0], [v, 0, 1 / 2], [v, 1 / 2, 1 / 2], [v, 1, 1 / 2], [v, 0, 1], [v, 1 / 2, 1], [v, 1, 1]]
  | 1, v => [[0, v, 0], [1 / 2, v, 0], [1, v, 0], [0, v, 1 / 2], [1 / 2, v, 1 / 2], [1, v, 1 / 2], [0, v, 1], [1 / 2, v, 1], [1, v, 1]]
  | _, v => [[0, 0, v], [1 / 2, 0, v], [1, 0, v], [0, 1 / 2, v], [1 / 2, 1 / 2, v], [1, 1 / 2, v], [0, 1, v], [1 / 2, 1, v], [1, 1, v]]

set_option maxHeartbeats 2000000 in
theorem ellipsVoid_side (c : List (List ℝ)) (hl : c.length = 27) (h : VoidInside c) (axis : ℕ) (ha : axis < 3) (v : ℝ) (hv : v = 0 ∨ v = 1) :
    SideIs (ellipsVoid 0 (1 / 2) 1 c) axis v [nineSide axis v] := by
  have g : ∀ i < 27, ¬((c.getD i []).getD axis 0 = v) := by
    intro i hi
    rcases hv with rfl | rfl
    · exact (voidInside_getD h hl hi ha).1
    · exact (voidInside_getD h hl hi ha).2
  have g0 := g 0 (by omega)
  have g1 := g 1 (by omega)
  have g2 := g 2 (by omega)
  have g3 := g 3 (by omega)
  have g4 := g 4 (by omega)
  have g5 := g 5 (by omega)
  have g6 := g 6 (by omega)
  have g7 := g 7 (by omega)
  have g8 := g 8 (by omega)
  have g9 := g 9 (by omega)
  have g10 := g 10 (by omega)
  have g11 := g 11 (by omega)
  have g12 := g 12 (by omega)
  have g13 := g 13 (by omega)
  have g14 := g 14 (by omega)
  have g15 := g 15 (by omega)
  have g16 := g 16 (by omega)
  have g17 := g 17 (by omega)
  have g18 := g 18 (by omega)
  have g19 := g 19 (by omega)
  have g20 := g 20 (by omega)
  have g21 := g 21 (by omega)
  have g22 := g 22 (by omega)
  have g23 := g 23 (by omega)
  have g24 := g 24 (by omega)
  have g25 := g 25 (by omega)
  have g26 := g 26 (by omega)
  clear g
  unfold ellipsVoid
  obtain rfl | rfl | rfl : axis = 0 ∨ axis = 1 ∨ axis = 2 := by omega
  all_goals
    simp only [List.getD_eq_getElem?_getD] at g0 g1 g2 g3 g4 g5 g6 g7 g8 g9 g10 g11 g12 g13 g14 g15 g16 g17 g18 g19 g20 g21 g22 g23 g24 g25 g26
    rcases hv with rfl | rfl <;> refine side_of ?_ ?_
  all_goals
    simp only [row, faces_cons, faces_nil, faces_221, faces_212, faces_122, List.cons_append, List.nil_append, List.append_nil]
    simp [onPlane_nil, onPlane_cons, g0, g1, g2, g3, g4, g5, g6, g7, g8, g9, g10, g11, g12, g13, g14, g15, g16, g17, g18, g19, g20, g21, g22, g23, g24, g25, g26, nineSide]

theorem voidPoints_strict (S : List (List ℝ)) (p : Mat ℝ)
    (hS : ∀ q ∈ S, (flatEntry p 0 * q.getD 0 0) ^ 2 + (flatEntry p 1 * q.getD 1 0) ^ 2 + (flatEntry p 1 * q.getD 2 0) ^ 2 < 1 / 4) : VoidInside (voidPoints S p) := by
  intro r hr
  simp only [voidPoints, shift, applyRows, List.map_map, List.mem_map, Function.comp_apply] at hr
  obtain ⟨q, hq, rfl⟩ := hr
  have h := hS q hq
  have e : ∀ i : Fin 3, ∑ l : Fin 3, (rotY (flatEntry p 3) * rotX (flatEntry p 2) * diag3 (flatEntry p 0) (flatEntry p 1)) i l * q.getD l 0
      = ∑ l, (rotY (flatEntry p 3) * rotX (flatEntry p 2)) i l * (![flatEntry p 0 * q.getD 0 0, flatEntry p 1 * q.getD 1 0, flatEntry p 1 * q.getD 2 0] : Fin 3 → ℝ) l := by
    intro i
    generalize rotY (flatEntry p 3) * rotX (flatEntry p 2) = M
    simp only [Matrix.mul_apply, Fin.sum_univ_three, diag3, Matrix.of_apply, Matrix.cons_val', Matrix.cons_val_zero, Matrix.cons_val_one, Matrix.cons_val,
      Fin.isValue, Matrix.cons_val_fin_one, Fin.val_zero, Fin.val_one, Fin.val_two]
    ring
  have b : ∀ i : Fin 3, 0 < (∑ l : Fin 3, (rotY (flatEntry p 3) * rotX (flatEntry p 2) * diag3 (flatEntry p 0) (flatEntry p 1)) i l * q.getD l 0) + 1 / 2 ∧
      (∑ l : Fin 3, (rotY (flatEntry p 3) * rotX (flatEntry p 2) * diag3 (flatEntry p 0) (flatEntry p 1)) i l * q.getD l 0) + 1 / 2 < 1 := by
    intro i
    have h1 := rotations_norm (flatEntry p 3) (flatEntry p 2) ![flatEntry p 0 * q.getD 0 0, flatEntry p 1 * q.getD 1 0, flatEntry p 1 * q.getD 2 0] i
    rw [← e] at h1
    simp only [Matrix.cons_val_zero, Matrix.cons_val_one, Matrix.cons_val, Fin.isValue] at h1
    constructor <;> nlinarith
  simp only [List.finRange_succ, List.finRange_zero, List.map_cons, List.map_nil, List.zipWith_cons_cons, List.zipWith_nil_left]
  refine ⟨rfl, fun x hx => ?_⟩
  simp only [List.mem_cons, List.not_mem_nil, or_false] at hx
  rcases hx with rfl | rfl | rfl
  · exact b 0
  · exact b 1
  · exact b 2

/-- The void of a `CubeVoid` with these parameters, however it is turned, is strictly inside of the cell: its diagonal is shorter than the cell. Without parameters the defaults are used. -/
def Spec.ShortDiagonal (p : Option (Mat ℝ)) : Prop := ∀ P, p = some P → flatEntry P 0 ^ 2 + 2 * flatEntry P 1 ^ 2 < 1

/-- The void of an `EllipsVoid` with these parameters, however it is turned, is strictly inside of the cell. Without parameters the defaults are used. -/
def Spec.SmallRadii (p : Option (Mat ℝ)) : Prop := ∀ P, p = some P → flatEntry P 0 ^ 2 < 1 / 3 ∧ flatEntry P 1 ^ 2 < 1 / 3

theorem cube_inside (p : Option (Mat ℝ)) (hp : ShortDiagonal p) : VoidInside (voidPoints cubeSphere (p.getD [[1 / 2, 1 / 2, 0, 0]])) := by
  have h : flatEntry (p.getD [[1 / 2, 1 / 2, 0, 0]]) 0 ^ 2 + 2 * flatEntry (p.getD [[1 / 2, 1 / 2, 0, 0]]) 1 ^ 2 < 1 := by
    cases p with
    | none => norm_num [flatEntry]
    | some P => exact hp P rfl
  generalize p.getD [[1 / 2, 1 / 2, 0, 0]] = P at *
  refine voidPoints_strict _ _ fun q hq => ?_
  simp only [cubeSphere, List.mem_cons, List.not_mem_nil, or_false] at hq
  rcases hq with rfl | rfl | rfl | rfl | rfl | rfl | rfl | rfl <;> simp <;> nlinarith

theorem ellips_inside (p : Option (Mat ℝ)) (hp : SmallRadii p) : VoidInside (voidPoints ellipsSphere (p.getD [[1 / 2, 1 / 2, 0, 0]])) := by
  have h : flatEntry (p.getD [[1 / 2, 1 / 2, 0, 0]]) 0 ^ 2 < 1 / 3 ∧ flatEntry (p.getD [[1 / 2, 1 / 2, 0, 0]]) 1 ^ 2 < 1 / 3 := by
    cases p with
    | none => norm_num [flatEntry]
    | some P => exact hp P rfl
  generalize p.getD [[1 / 2, 1 / 2, 0, 0]] = P at *
  obtain ⟨h0, h1⟩ := h
  refine voidPoints_strict _ _ ?_
  have sq : (√3 : ℝ) ^ 2 = 3 := Real.sq_sqrt (by norm_num)
  have c0 : (1 / 2 / √3 : ℝ) ^ 2 = 1 / 12 := by rw [div_pow, sq]; norm_num
  have a1 : (√3 / 2 * (1 / 2) : ℝ) ^ 2 = 3 / 16 := by rw [mul_pow, div_pow, sq]; norm_num
  have a0 : (√3 / 2 * (1 / 2) * 2 : ℝ) ^ 2 = 3 / 4 := by rw [mul_pow, mul_pow, div_pow, sq]; norm_num
  have main : ∀ x y z : ℝ, x ^ 2 + y ^ 2 + z ^ 2 ≤ 3 / 4 → (flatEntry P 0 * x) ^ 2 + (flatEntry P 1 * y) ^ 2 + (flatEntry P 1 * z) ^ 2 < 1 / 4 := by
    intro x y z hxyz
    rw [mul_pow, mul_pow, mul_pow]
    by_cases h0' : x ^ 2 + y ^ 2 + z ^ 2 = 0
    · have hx : x ^ 2 = 0 := by nlinarith [sq_nonneg x, sq_nonneg y, sq_nonneg z]
      have hy : y ^ 2 = 0 := by nlinarith [sq_nonneg x, sq_nonneg y, sq_nonneg z]
      have hz : z ^ 2 = 0 := by nlinarith [sq_nonneg x, sq_nonneg y, sq_nonneg z]
      rw [hx, hy, hz]
      norm_num
    · have hm : max (flatEntry P 0 ^ 2) (flatEntry P 1 ^ 2) < 1 / 3 := max_lt h0 h1
      have e0 := le_max_left (flatEntry P 0 ^ 2) (flatEntry P 1 ^ 2)
      have e1 := le_max_right (flatEntry P 0 ^ 2) (flatEntry P 1 ^ 2)
      have hpos : 0 < x ^ 2 + y ^ 2 + z ^ 2 := lt_of_le_of_ne (by positivity) (Ne.symm h0')
      nlinarith [mul_le_mul_of_nonneg_right e0 (sq_nonneg x), mul_le_mul_of_nonneg_right e1 (sq_nonneg y), mul_le_mul_of_nonneg_right e1 (sq_nonneg z), mul_lt_mul_of_pos_right hm hpos]
  intro q hq
  refine main _ _ _ ?_
  simp only [ellipsSphere, List.mem_cons, List.not_mem_nil, or_false] at hq
  generalize (1 / 2 / √3 : ℝ) = C at *
  generalize (√3 / 2 * (1 / 2) * 2 : ℝ) = A at *
  generalize (√3 / 2 * (1 / 2) : ℝ) = B at *
  rcases hq with rfl | rfl | rfl | rfl | rfl | rfl | rfl | rfl | rfl | rfl | rfl | rfl | rfl | rfl | rfl | rfl | rfl | rfl | rfl | rfl | rfl | rfl | rfl | rfl | rfl | rfl | rfl <;>
    simp <;> nlinarith

theorem voidPoints_length (S : List (List ℝ)) (p : Mat ℝ) : (voidPoints S p).length = S.length := by simp [voidPoints, shift, applyRows]

/-- Neighbouring tiles of `CubeVoid` meet in every direction, whatever the angles and expansions, if the diagonals of the voids are shorter than the cell. -/
theorem cube_void_joins_partial (axis : ℕ) (ha : axis < 3) (c c' : Option String) (p q : Option (Mat ℝ)) (s s' : Option (List (Mat ℝ))) (T U : Tile ℝ)
    (hT : createCubeVoid c p s = some T) (hU : createCubeVoid c' q s' = some U) (hp : ShortDiagonal p) (hq : ShortDiagonal q) : Joins T.splines U.splines axis := by
  simp only [createCubeVoid, Option.ite_none_right_eq_some, Option.some.injEq] at hT hU
  obtain ⟨-, rfl⟩ := hT
  obtain ⟨-, rfl⟩ := hU
  refine joins_of_sides (cubeVoid_side _ (by rw [voidPoints_length]; rfl) (cube_inside p hp) axis ha 1 (Or.inr rfl))
    (cubeVoid_side _ (by rw [voidPoints_length]; rfl) (cube_inside q hq) axis ha 0 (Or.inl rfl)) ?_ ?_
  all_goals
    obtain rfl | rfl | rfl : axis = 0 ∨ axis = 1 ∨ axis = 2 := by omega
    all_goals simp [squareSide]

/-- Neighbouring tiles of `EllipsVoid` meet in every direction, whatever the angles, if the radii are small enough for every rotation. -/
theorem ellips_void_joins_partial (axis : ℕ) (ha : axis < 3) (c c' : Option String) (p q : Option (Mat ℝ)) (s s' : Option (List (Mat ℝ))) (T U : Tile ℝ)
    (hT : createEllipsVoid c p s = some T) (hU : createEllipsVoid c' q s' = some U) (hp : SmallRadii p) (hq : SmallRadii q) : Joins T.splines U.splines axis := by
  simp only [createEllipsVoid, Option.ite_none_right_eq_some, Option.some.injEq] at hT hU
  obtain ⟨-, rfl⟩ := hT
  obtain ⟨-, rfl⟩ := hU
  refine joins_of_sides (ellipsVoid_side _ (by rw [voidPoints_length]; rfl) (ellips_inside p hp) axis ha 1 (Or.inr rfl))
    (ellipsVoid_side _ (by rw [voidPoints_length]; rfl) (ellips_inside q hq) axis ha 0 (Or.inl rfl)) ?_ ?_
  all_goals
    obtain rfl | rfl | rfl : axis = 0 ∨ axis = 1 ∨ axis = 2 := by omega
    all_goals simp [nineSide]

/-- Expansions are not checked: next to an ordinary tile, a tile whose void fills the cell has faces in the common side that meet nothing. -/
theorem cube_void_joins_violates (c c' : Option String) : ∃ T U, createCubeVoid c none none = some T ∧ createCubeVoid c' (some [[1, 1, 0, 0]]) none = some U ∧ ¬ Joins T.splines U.splines 0 := by
  refine ⟨_, _, by simp [createCubeVoid, checkDerivatives]; rfl, by simp [createCubeVoid, checkDerivatives]; rfl, ?_⟩
  intro h
  have hside := cubeVoid_side _ (by rw [voidPoints_length]; rfl) (cube_inside none (by simp [ShortDiagonal])) 0 (by omega) 1 (Or.inr rfl)
  obtain ⟨f, hf, hp, e⟩ := h.2 [[0, 0, 0], [0, 1, 0], [0, 0, 0], [0, 1, 0]] (by
    have e : voidPoints cubeSphere [[1, 1, 0, 0]] = [[0, 0, 0], [1, 0, 0], [0, 1, 0], [1, 1, 0], [0, 0, 1], [1, 0, 1], [0, 1, 1], [1, 1, 1]] := by
      rw [voidPoints, applyRows_eq]
      simp [cubeSphere, shift, flatEntry, Matrix.mul_apply, Fin.sum_univ_three, rotY, rotX, diag3]
      norm_num
    rw [e]
    simp [assemble, cubeVoid, faces_cons, faces_nil, faces_111, row]) (by simp [OnPlane])
  have := (hside f).1 ⟨by simpa [assemble] using hf, hp⟩
  rw [List.mem_singleton] at this
  subst this
  simp [squareSide] at e

/-- Neighbouring tiles of `Chi` meet in the corners of the cells, whatever their angles. -/
theorem chi_joins (axis : ℕ) (ha : axis < 2) (c c' : Option String) (p q : Option (Mat ℝ)) (s s' : Option (List (Mat ℝ))) (T U : Tile ℝ)
    (hT : createChi c p s = some T) (hU : createChi c' q s' = some U) : Joins T.splines U.splines axis := by
  simp only [createChi, Option.ite_none_right_eq_some, Option.some.injEq] at hT hU
  obtain ⟨-, rfl⟩ := hT
  obtain ⟨-, rfl⟩ := hU
  simp only [assemble, chiTile]
  have f2 : ∀ a b c : List ℝ, patchFaces ⟨[2], [a, b, c]⟩ = [[a], [c]] := fun _ _ _ => rfl
  have side : ∀ (S C : ℝ), (SideIs (chi 0 (1 / 2) S C) 0 0 [[[0, 0]], [[0, 1]]] ∧ SideIs (chi 0 (1 / 2) S C) 0 1 [[[1, 0]], [[1, 1]]]) ∧
      SideIs (chi 0 (1 / 2) S C) 1 0 [[[0, 0]], [[1, 0]]] ∧ SideIs (chi 0 (1 / 2) S C) 1 1 [[[0, 1]], [[1, 1]]] := by
    intro S C
    unfold chi
    refine ⟨⟨side_of ?_ ?_, side_of ?_ ?_⟩, side_of ?_ ?_, side_of ?_ ?_⟩
    all_goals
      simp only [shift, List.map_cons, List.map_nil, List.zipWith_cons_cons, List.zipWith_nil_left, faces_cons, faces_nil, f2, List.cons_append, List.nil_append, List.append_nil]
      norm_num [onPlane_nil, onPlane_cons]
  obtain rfl | rfl : axis = 0 ∨ axis = 1 := by omega
  · exact joins_of_sides (side _ _).1.2 (side _ _).1.1 (by simp) (by simp)
  · exact joins_of_sides (side _ _).2.2 (side _ _).2.1 (by simp) (by simp)

example : (createCubeVoid none (some [[1 / 2, 1 / 2, 1, 2]]) none).isSome = true ∧ ShortDiagonal (some [[1 / 2, 1 / 2, 1, 2]]) ∧ ¬ ShortDiagonal (some [[1, 1, 0, 0]]) := by
  norm_num [createCubeVoid, checkDerivatives, flatEntry, ShortDiagonal]

example : (createEllipsVoid none (some [[1 / 2, 1 / 3, 1, 2]]) none).isSome = true ∧ SmallRadii (some [[1 / 2, 1 / 3, 1, 2]]) := by
  norm_num [createEllipsVoid, checkDerivatives, flatEntry, SmallRadii]

example : (createChi none none none).isSome = true := by
  rw [createChi, if_pos (by simp [checkParams, checkDerivatives])]; rfl

end Splinepy.Tiles
