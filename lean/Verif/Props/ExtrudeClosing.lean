import Verif.Model.ExtrudeClosing
import Verif.Props.TileExtrude
import Verif.Props.TileGeometry
import Verif.Props.TileCloses
import Verif.Props.TileConnectedMore

/-!
C150: `HollowOctagonExtrude.closing_tile`.
-/

namespace Splinepy.Tiles

open Spec Splinepy.Spec

section
variable {K : Type} [Field K] [LinearOrder K] [IsStrictOrderedRing K]

/-- `closing_tile` of the extruded octagon is the closing tile of the plane octagon, for every contact length which the latter accepts. -/
theorem extrude_closing_is_plane (contact : K) (hc : 0 < contact ∧ contact < 99 / 100) (closure : String) (p : Option (Mat K)) (s : Option (List (Mat K))) :
    closingHollowOctagonExtrude p s contact (some closure) = createHollowOctagon contact (some closure) p s := by
  unfold closingHollowOctagonExtrude createHollowOctagon hollowOctagonClosing
  simp only
  generalize p.getD (constant 1 1 (1 / 5)) = p
  by_cases hp : checkParams 1 1 p = true
  · obtain ⟨a, rfl⟩ := params_one hp
    simp only [hp, hc.1, hc.2, decide_true, Bool.true_and, Bool.and_true, List.take_succ_cons, List.take_nil]
    cases within 0 (1 / 2) [[a]] <;> cases s.isNone <;> simp
    split_ifs <;> rfl
  · simp [hp]

/-- **C150.** Whenever `closing_tile` returns with a contact length between 0 and 0.99: the result stays in the unit square, its patches hang together, and they close the
side which was named. (What is missing: the dimension of the tile and the check of the contact length, see the two theorems with `violates` in their names.) -/
theorem extrude_closing_partial (contact : K) (hc : 0 < contact ∧ contact < 99 / 100) (closure : String) (p : Option (Mat K)) (s : Option (List (Mat K))) (T : Tile K)
    (h : closingHollowOctagonExtrude p s contact (some closure) = some T) :
    InUnitCube T.splines ∧ Connected T.splines ∧ ClosesNamed T.splines 2 closure := by
  rw [extrude_closing_is_plane contact hc] at h
  refine ⟨?_, hollow_octagon_connected _ _ _ _ _ h, hollow_octagon_closes _ _ _ _ _ h⟩
  cases p with
  | some p => exact hollow_octagon_in_unit_square _ _ _ _ _ h
  | none => exact hollow_octagon_in_unit_square contact (some closure) (constant 1 1 (1 / 5)) s T h

/-- Which calls return: no sensitivities, one parameter above 0.01 and below 0.5, and one of the four sides in `x` and `y`. The sides in `z` of the three-dimensional tile have none. -/
theorem extrude_closing_returns (contact : K) (closure : Option String) (p : Option (Mat K)) (s : Option (List (Mat K))) :
    (closingHollowOctagonExtrude p s contact closure).isSome = true ↔
      s = none ∧ (∃ a : K, p.getD [[1 / 5]] = [[a]] ∧ 1 / 100 < a ∧ a < 1 / 2) ∧ ∃ c ∈ ["x_min", "x_max", "y_min", "y_max"], closure = some c := by
  unfold closingHollowOctagonExtrude
  cases closure with
  | none => simp
  | some c =>
    have hd : p.getD (constant 1 1 (1 / 5)) = p.getD [[1 / 5]] := rfl
    simp only [hd]
    generalize p.getD [[1 / 5]] = p
    by_cases hp : checkParams 1 1 p = true
    · obtain ⟨a, rfl⟩ := params_one hp
      have hw : within 0 (1 / 2) [[a]] = true ↔ 0 < a ∧ a < 1 / 2 := by rw [within_iff]; simp
      have hi : s.isNone = true ↔ s = none := by cases s <;> simp
      simp only [List.take_succ_cons, List.take_nil, Bool.and_eq_true, hw, hp, hi, and_true, entry, List.getD_cons_zero, decide_eq_true_eq]
      constructor
      · intro h
        split_ifs at h with h1 h2 h3 h4 h5
        · exact ⟨h1.1.2, ⟨a, rfl, h1.2⟩, c, by simp [h2], rfl⟩
        · exact ⟨h1.1.2, ⟨a, rfl, h1.2⟩, c, by simp [h3], rfl⟩
        · exact ⟨h1.1.2, ⟨a, rfl, h1.2⟩, c, by simp [h4], rfl⟩
        · exact ⟨h1.1.2, ⟨a, rfl, h1.2⟩, c, by simp [h5], rfl⟩
        all_goals simp at h
      · rintro ⟨h1, ⟨a', ha, h2, h3⟩, c', hc', e⟩
        obtain rfl : a = a' := by simpa using ha
        cases e
        rw [if_pos ⟨⟨⟨by linarith, h3⟩, h1⟩, h2, h3⟩]
        simp only [List.mem_cons, List.not_mem_nil, or_false] at hc'
        rcases hc' with rfl | rfl | rfl | rfl <;> simp
    · simp only [hp, Bool.and_false, Bool.false_and, Bool.false_eq_true, if_false, Option.isSome_none, false_iff]
      rintro ⟨-, ⟨a, rfl, -⟩, -⟩
      exact hp (by simp [checkParams])

/-- **C150, violated: the dimension.** The class announces three-dimensional tiles with three parametric dimensions, and those of `create_tile` are; every patch which
`closing_tile` ever returns has two parametric dimensions and points in the plane. -/
theorem extrude_closing_dimension_violates (contact contact' : K) (c c' : Option String) (p p' : Option (Mat K)) (s s' : Option (List (Mat K))) (T U : Tile K)
    (hT : createHollowOctagonExtrude contact c p s = some T) (hU : closingHollowOctagonExtrude p' s' contact' c' = some U) :
    (T.splines.length = 8 ∧ U.splines.length = 8) ∧ (∀ P ∈ T.splines, P.degrees.length = 3 ∧ ∀ x ∈ P.cps, x.length = 3) ∧
      ∀ P ∈ U.splines, P.degrees.length = 2 ∧ ∀ x ∈ P.cps, x.length = 2 := by
  obtain ⟨w, -, -, -, e⟩ := extrude_cases hT
  have key : U.splines.length = 8 ∧ ∀ P ∈ U.splines, P.degrees.length = 2 ∧ ∀ x ∈ P.cps, x.length = 2 := by
    unfold closingHollowOctagonExtrude at hU
    cases c' with
    | none => simp at hU
    | some c' =>
      simp only at hU
      split_ifs at hU <;> cases hU <;>
        simp [hollowOctagonCloseXMin, hollowOctagonCloseXMax, hollowOctagonCloseYMin, hollowOctagonCloseYMax]
  refine ⟨⟨?_, key.1⟩, ?_, key.2⟩
  · rw [e]; simp [hollowOctagonExtrude]
  · rw [e]; simp [hollowOctagonExtrude]

end

/-- **C150, violated: the contact length.** Any number is accepted: with contact length 2 the tile leaves the unit square. -/
theorem extrude_closing_contact_violates : ∃ T : Tile ℚ, closingHollowOctagonExtrude none none 2 (some "x_min") = some T ∧ ¬ InUnitCube T.splines := by
  refine ⟨_, by rw [closingHollowOctagonExtrude]; simp only; rw [if_pos (by decide +kernel), if_pos trivial], ?_⟩
  unfold InUnitCube
  decide +kernel

/-- The patches of the closing tiles are regular and right-handed, as patches of the plane. -/
theorem extrude_closing_oriented (contact : ℝ) (hc : 0 < contact ∧ contact < 99 / 100) (closure : String) (p : Option (Mat ℝ)) (s : Option (List (Mat ℝ))) (T : Tile ℝ)
    (h : closingHollowOctagonExtrude p s contact (some closure) = some T) : Oriented 2 T.splines :=
  hollow_octagon_oriented _ _ _ _ _ (extrude_closing_is_plane contact hc closure p s ▸ h)

example : (closingHollowOctagonExtrude (some [[1 / 4]]) none (1 / 5 : ℚ) (some "y_max")).isSome = true ∧
    (createHollowOctagonExtrude (1 / 5 : ℚ) none none none).isSome = true := by decide +kernel

end Splinepy.Tiles
