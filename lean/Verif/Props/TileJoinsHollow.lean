import Verif.Props.TileJoins

/-!
C77, continued: `HollowCube`.
-/

set_option linter.unusedSimpArgs false

namespace Splinepy.Tiles

open Spec

section
variable {K : Type} [Field K] [LinearOrder K] [IsStrictOrderedRing K]

/-- a value that is on neither side -/
theorem wall {x : K} (h : 0 < x ∧ x < 1 / 2) : ¬(x = 1) ∧ ¬(x = 0) ∧ ¬(1 - x = 1) ∧ ¬(1 - x = 0) := by
  refine ⟨fun e => ?_, fun e => ?_, fun e => ?_, fun e => ?_⟩ <;> linarith [h.1, h.2]

set_option maxRecDepth 8000 in
set_option maxHeartbeats 16000000 in
theorem hollow_cube_x_sides (a b d e f g c : K) (hc : 0 < c ∧ c < 1 / 2) (ha : 0 < a ∧ a < 1 / 2) (hb : 0 < b ∧ b < 1 / 2)
    (hd : 0 < d ∧ d < 1 / 2) (he : 0 < e ∧ e < 1 / 2) (hf : 0 < f ∧ f < 1 / 2) (hg : 0 < g ∧ g < 1 / 2) :
    SideIs (hollowCube 0 1 a b d e f g c) 0 0 [[[0, a, a], [0, 1 - a, a], [0, 0, 0], [0, 1, 0]], [[0, 0, 1], [0, 1, 1], [0, a, 1 - a], [0, 1 - a, 1 - a]],
      [[0, 1, 0], [0, 1, 1], [0, 1 - a, a], [0, 1 - a, 1 - a]], [[0, a, a], [0, a, 1 - a], [0, 0, 0], [0, 0, 1]]] ∧
    SideIs (hollowCube 0 1 a b d e f g c) 0 1 [[[1, b, b], [1, 1 - b, b], [1, 0, 0], [1, 1, 0]], [[1, 0, 1], [1, 1, 1], [1, b, 1 - b], [1, 1 - b, 1 - b]],
      [[1, 1, 0], [1, 1, 1], [1, 1 - b, b], [1, 1 - b, 1 - b]], [[1, b, b], [1, b, 1 - b], [1, 0, 0], [1, 0, 1]]] := by
  unfold hollowCube
  refine ⟨?_, ?_⟩ <;> side [wall hc, wall ha, wall hb, wall hd, wall he, wall hf, wall hg]

set_option maxRecDepth 8000 in
set_option maxHeartbeats 16000000 in
theorem hollow_cube_y_sides (a b d e f g c : K) (hc : 0 < c ∧ c < 1 / 2) (ha : 0 < a ∧ a < 1 / 2) (hb : 0 < b ∧ b < 1 / 2)
    (hd : 0 < d ∧ d < 1 / 2) (he : 0 < e ∧ e < 1 / 2) (hf : 0 < f ∧ f < 1 / 2) (hg : 0 < g ∧ g < 1 / 2) :
    SideIs (hollowCube 0 1 a b d e f g c) 1 0 [[[1 - d, 0, d], [1, 0, 0], [1 - d, 0, 1 - d], [1, 0, 1]], [[0, 0, 0], [d, 0, d], [0, 0, 1], [d, 0, 1 - d]],
      [[d, 0, 1 - d], [1 - d, 0, 1 - d], [0, 0, 1], [1, 0, 1]], [[0, 0, 0], [1, 0, 0], [d, 0, d], [1 - d, 0, d]]] ∧
    SideIs (hollowCube 0 1 a b d e f g c) 1 1 [[[1 - e, 1, e], [1, 1, 0], [1 - e, 1, 1 - e], [1, 1, 1]], [[0, 1, 0], [e, 1, e], [0, 1, 1], [e, 1, 1 - e]],
      [[e, 1, 1 - e], [1 - e, 1, 1 - e], [0, 1, 1], [1, 1, 1]], [[0, 1, 0], [1, 1, 0], [e, 1, e], [1 - e, 1, e]]] := by
  unfold hollowCube
  refine ⟨?_, ?_⟩ <;> side [wall hc, wall ha, wall hb, wall hd, wall he, wall hf, wall hg]

set_option maxRecDepth 8000 in
set_option maxHeartbeats 16000000 in
theorem hollow_cube_z_sides (a b d e f g c : K) (hc : 0 < c ∧ c < 1 / 2) (ha : 0 < a ∧ a < 1 / 2) (hb : 0 < b ∧ b < 1 / 2)
    (hd : 0 < d ∧ d < 1 / 2) (he : 0 < e ∧ e < 1 / 2) (hf : 0 < f ∧ f < 1 / 2) (hg : 0 < g ∧ g < 1 / 2) :
    SideIs (hollowCube 0 1 a b d e f g c) 2 0 [[[0, 0, 0], [f, f, 0], [0, 1, 0], [f, 1 - f, 0]], [[1 - f, f, 0], [1, 0, 0], [1 - f, 1 - f, 0], [1, 1, 0]],
      [[0, 1, 0], [1, 1, 0], [f, 1 - f, 0], [1 - f, 1 - f, 0]], [[f, f, 0], [1 - f, f, 0], [0, 0, 0], [1, 0, 0]]] ∧
    SideIs (hollowCube 0 1 a b d e f g c) 2 1 [[[0, 0, 1], [g, g, 1], [0, 1, 1], [g, 1 - g, 1]], [[1 - g, g, 1], [1, 0, 1], [1 - g, 1 - g, 1], [1, 1, 1]],
      [[0, 1, 1], [1, 1, 1], [g, 1 - g, 1], [1 - g, 1 - g, 1]], [[g, g, 1], [1 - g, g, 1], [0, 0, 1], [1, 0, 1]]] := by
  unfold hollowCube
  refine ⟨?_, ?_⟩ <;> side [wall hc, wall ha, wall hb, wall hd, wall he, wall hf, wall hg]

/-- Neighbouring tiles of `HollowCube` meet if their wall thicknesses on the common side agree. -/
theorem hollow_cube_joins (axis : ℕ) (ha : axis < 3) (c c' : Option String) (p q : Mat K) (s s' : Option (List (Mat K))) (T U : Tile K)
    (hT : createHollowCube c (some p) s = some T) (hU : createHollowCube c' (some q) s' = some U)
    (hpq : entry p (2 * axis + 1) 0 = entry q (2 * axis) 0) : Joins T.splines U.splines axis := by
  have key : ∀ (c : Option String) (p : Mat K) (s : Option (List (Mat K))) (T : Tile K), createHollowCube c (some p) s = some T →
      T.splines = hollowCube 0 1 (entry p 0 0) (entry p 1 0) (entry p 2 0) (entry p 3 0) (entry p 4 0) (entry p 5 0) (entry p 6 0) ∧
      ∀ i < 7, 0 < entry p i 0 ∧ entry p i 0 < 1 / 2 := by
    intro c p s T h
    simp only [createHollowCube, Option.getD_some, Option.ite_none_right_eq_some, Bool.and_eq_true, Option.some.injEq] at h
    obtain ⟨⟨⟨h1, h2⟩, -⟩, rfl⟩ := h
    refine ⟨rfl, fun i hi => ?_⟩
    rw [within_iff] at h2
    simp only [checkParams, Bool.and_eq_true, beq_iff_eq, List.all_eq_true] at h1
    obtain ⟨hl, hr⟩ := h1
    have hi' : i < p.length := by omega
    have hm : p.getD i [] ∈ p := by rw [List.getD_eq_getElem _ _ hi']; exact List.getElem_mem hi'
    have hrl := hr _ hm
    refine h2 _ hm _ ?_
    rw [entry, List.getD_eq_getElem (p.getD i []) 0 (by omega)]
    exact List.getElem_mem _
  obtain ⟨eT, hp⟩ := key _ _ _ _ hT
  obtain ⟨eU, hq⟩ := key _ _ _ _ hU
  rw [eT, eU]
  obtain rfl | rfl | rfl : axis = 0 ∨ axis = 1 ∨ axis = 2 := by omega
  all_goals simp only [Nat.mul_zero, Nat.mul_one, Nat.zero_add, Nat.reduceMul, Nat.reduceAdd] at hpq
  · exact joins_of_sides (hollow_cube_x_sides _ _ _ _ _ _ _ (hp 6 (by omega)) (hp 0 (by omega)) (hp 1 (by omega)) (hp 2 (by omega)) (hp 3 (by omega)) (hp 4 (by omega)) (hp 5 (by omega))).2
      (hollow_cube_x_sides _ _ _ _ _ _ _ (hq 6 (by omega)) (hq 0 (by omega)) (hq 1 (by omega)) (hq 2 (by omega)) (hq 3 (by omega)) (hq 4 (by omega)) (hq 5 (by omega))).1
      (by simp [hpq]) (by simp [hpq])
  · exact joins_of_sides (hollow_cube_y_sides _ _ _ _ _ _ _ (hp 6 (by omega)) (hp 0 (by omega)) (hp 1 (by omega)) (hp 2 (by omega)) (hp 3 (by omega)) (hp 4 (by omega)) (hp 5 (by omega))).2
      (hollow_cube_y_sides _ _ _ _ _ _ _ (hq 6 (by omega)) (hq 0 (by omega)) (hq 1 (by omega)) (hq 2 (by omega)) (hq 3 (by omega)) (hq 4 (by omega)) (hq 5 (by omega))).1
      (by simp [hpq]) (by simp [hpq])
  · exact joins_of_sides (hollow_cube_z_sides _ _ _ _ _ _ _ (hp 6 (by omega)) (hp 0 (by omega)) (hp 1 (by omega)) (hp 2 (by omega)) (hp 3 (by omega)) (hp 4 (by omega)) (hp 5 (by omega))).2
      (hollow_cube_z_sides _ _ _ _ _ _ _ (hq 6 (by omega)) (hq 0 (by omega)) (hq 1 (by omega)) (hq 2 (by omega)) (hq 3 (by omega)) (hq 4 (by omega)) (hq 5 (by omega))).1
      (by simp [hpq]) (by simp [hpq])

example : (createHollowCube none (some [[1/5], [1/4], [1/3], [1/6], [1/7], [1/8], [1/9]]) (none : Option (List (Mat ℚ)))).isSome = true ∧
    (createHollowCube none (some [[1/4], [1/5], [1/6], [1/3], [1/8], [1/7], [1/9]]) (none : Option (List (Mat ℚ)))).isSome = true ∧
    entry [[1/5], [1/4], [1/3], [1/6], [1/7], [1/8], [1/9]] (2 * 1 + 1) 0 = entry [[1/4], [1/5], [1/6], [1/3], [1/8], [1/7], [(1/9 : ℚ)]] (2 * 1) 0 := by decide +kernel

end
end Splinepy.Tiles
