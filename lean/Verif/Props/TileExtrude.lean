import Verif.Props.TileConnected
import Verif.Props.TileOrient

/-!
C76, C77, C78, C107, C110 for `HollowOctagonExtrude`.
-/

namespace Splinepy.Tiles

open Spec Splinepy.Spec

section
variable {K : Type} [Field K] [LinearOrder K] [IsStrictOrderedRing K]

theorem extrude_cases {contact : K} {closure : Option String} {p : Option (Mat K)} {s : Option (List (Mat K))} {T : Tile K} (h : createHollowOctagonExtrude contact closure p s = some T) :
    ∃ w : K, p.getD (constant 1 1 (1 / 5)) = [[w]] ∧ (1 / 100 < w ∧ w < 1 / 2) ∧ (0 < contact ∧ contact < 1) ∧
      T.splines = hollowOctagonExtrude 0 (1 / 2) 1 w (contact * w) (contact * (1 / 2)) := by
  simp only [createHollowOctagonExtrude, Option.ite_none_right_eq_some, Bool.and_eq_true, decide_eq_true_eq, Option.some.injEq] at h
  generalize p.getD (constant 1 1 (1 / 5)) = p at *
  obtain ⟨⟨⟨⟨⟨h1, h2⟩, h3⟩, h4⟩, h5⟩, rfl⟩ := h
  obtain ⟨a, rfl⟩ := params_one h4
  exact ⟨a, rfl, by simpa [entry] using h5, ⟨h1, by linarith⟩, rfl⟩

theorem extrude_code : below 8 hollowOctagonExtrudeCode = true ∧ spans hollowOctagonExtrudeCode [0] [(1, 0), (6, 1), (7, 0), (2, 7), (3, 2), (4, 3), (5, 6)] = true ∧
    (∀ axis < 2, tidy hollowOctagonExtrudeCode axis 8 = true ∧ meetsHalf hollowOctagonExtrudeCode hollowOctagonExtrudeCode axis 1 0 [0, 1, 3, 4] = true ∧
      meetsHalf hollowOctagonExtrudeCode hollowOctagonExtrudeCode axis 0 1 [0, 1, 3, 4] = true) ∧
    tidy hollowOctagonExtrudeCode 2 8 = true ∧ meetsHalf hollowOctagonExtrudeCode hollowOctagonExtrudeCode 2 1 0 [0, 1, 2, 3, 4, 5, 6, 7] = true ∧
      meetsHalf hollowOctagonExtrudeCode hollowOctagonExtrudeCode 2 0 1 [0, 1, 2, 3, 4, 5, 6, 7] = true := by decide +kernel

theorem extrude_table {w c : K} (hw : 1 / 100 < w ∧ w < 1 / 2) (hc : 0 < c ∧ c < 1) :
    ∀ n < 8, (0 ≤ look (armadilloTable w (c * w) (c * (1 / 2))) n ∧ look (armadilloTable w (c * w) (c * (1 / 2))) n ≤ 1) ∧
      (look (armadilloTable w (c * w) (c * (1 / 2))) n = 0 ↔ n = 0) ∧ (look (armadilloTable w (c * w) (c * (1 / 2))) n = 1 ↔ n = 1) := by
  have h0 : 0 < w := by linarith
  exact armadillo_table ⟨h0, hw.2⟩ ⟨mul_pos hc.1 h0, by nlinarith [hc.2, hw.2]⟩ ⟨by linarith, by linarith⟩

/-- `HollowOctagonExtrude` stays in the unit cube. -/
theorem hollow_octagon_extrude_in_unit_cube (contact : K) (closure : Option String) (p : Option (Mat K)) (s : Option (List (Mat K))) (T : Tile K)
    (h : createHollowOctagonExtrude contact closure p s = some T) : InUnitCube T.splines := by
  obtain ⟨w, -, hw, hc, e⟩ := extrude_cases h
  rw [e, hollowOctagonExtrude_code]
  exact inUnitCube_decode extrude_code.1 fun n hn => (extrude_table hw hc n hn).1

/-- The patches of `HollowOctagonExtrude` hang together. -/
theorem hollow_octagon_extrude_connected (contact : K) (closure : Option String) (p : Option (Mat K)) (s : Option (List (Mat K))) (T : Tile K)
    (h : createHollowOctagonExtrude contact closure p s = some T) : Connected T.splines := by
  obtain ⟨w, -, hw, hc, e⟩ := extrude_cases h
  rw [e, hollowOctagonExtrude_code]
  exact connected_decode _ (connected_of_spans _ extrude_code.2.1)

/-- Neighbouring tiles of `HollowOctagonExtrude` meet in `x` and `y` whatever their parameters, in `z` if their parameters are equal. -/
theorem hollow_octagon_extrude_joins_partial (contact : K) (axis : ℕ) (ha : axis < 3) (c c' : Option String) (p q : Option (Mat K)) (s s' : Option (List (Mat K)))
    (T U : Tile K) (hT : createHollowOctagonExtrude contact c p s = some T) (hU : createHollowOctagonExtrude contact c' q s' = some U) (hpq : axis = 2 → p = q) :
    Meets T.splines U.splines axis := by
  obtain ⟨w, hp, hw, hc, e⟩ := extrude_cases hT
  obtain ⟨w', hq, hw', -, e'⟩ := extrude_cases hU
  obtain ⟨-, -, hxy, t, m1, m2⟩ := extrude_code
  rw [e, e', hollowOctagonExtrude_code, hollowOctagonExtrude_code]
  obtain ha | rfl : axis < 2 ∨ axis = 2 := by omega
  · obtain ⟨t, m1, m2⟩ := hxy axis ha
    refine meets_decode (fun n hn => (extrude_table hw hc n hn).2.2) (fun n hn => (extrude_table hw' hc n hn).2.1) rfl rfl (fun n hn => ?_) t t m1 m2
    simp only [List.mem_cons, List.not_mem_nil, or_false] at hn
    rcases hn with rfl | rfl | rfl | rfl <;> rfl
  · have : w = w' := by
      rw [hpq rfl, hq] at hp
      simpa using hp.symm
    subst this
    exact meets_decode (fun n hn => (extrude_table hw hc n hn).2.2) (fun n hn => (extrude_table hw hc n hn).2.1) rfl rfl (fun n hn => rfl) t t m1 m2

example : (createHollowOctagonExtrude (1 / 5 : ℚ) none none none).isSome = true ∧ (createHollowOctagonExtrude (1 / 5 : ℚ) none (some [[2 / 5]]) none).isSome = true := by decide +kernel

end

/-- Two neighbours on top of each other, with different parameters: they do not meet. The parameter is evaluated in the middle of the tile only. -/
theorem hollow_octagon_extrude_joins_violates : ∃ T U : Tile ℚ, createHollowOctagonExtrude (1 / 5) none (some [[1 / 5]]) none = some T ∧
    createHollowOctagonExtrude (1 / 5) none (some [[2 / 5]]) none = some U ∧ ¬ Meets T.splines U.splines 2 := by
  rw [createHollowOctagonExtrude, if_pos (by decide +kernel), createHollowOctagonExtrude, if_pos (by decide +kernel)]
  refine ⟨_, _, rfl, rfl, ?_⟩
  unfold Meets OnPlane
  decide +kernel

/-- `HollowOctagonExtrude.create_tile` accepts a closure and returns a tile with openings in that face. -/
theorem hollow_octagon_extrude_closes_violates : ∃ T : Tile ℚ, createHollowOctagonExtrude (1 / 5) (some "x_min") none none = some T ∧ ¬ ClosesNamed T.splines 3 "x_min" := by
  rw [createHollowOctagonExtrude, if_pos (by decide +kernel)]
  refine ⟨_, rfl, ?_⟩
  rintro ⟨f, hf, -, h⟩
  cases hf
  refine not_hit (x := [0, 1 / 10, 1 / 2]) [[1, 0, 0], [0, 1, 0], [1, 1, 0]] ?_ (h _ rfl (by decide +kernel) rfl)
  decide +kernel

/-- A planar quadrilateral with positive turns at its four corners, extruded along `z`. -/
theorem right_extruded {a b c d e f g h : ℝ} (h1 : 0 < (c - a) * (f - b) - (d - b) * (e - a)) (h2 : 0 < (c - a) * (h - d) - (d - b) * (g - c))
    (h3 : 0 < (g - e) * (f - b) - (h - f) * (e - a)) (h4 : 0 < (g - e) * (h - d) - (h - f) * (g - c)) :
    RightHanded 3 ⟨[1, 1, 1], [[a, b, 0], [c, d, 0], [e, f, 0], [g, h, 0], [a, b, 1], [c, d, 1], [e, f, 1], [g, h, 1]]⟩ := by
  refine oriented_three rfl (by simp) fun u v w hu hv hw => ?_
  rw [det_three]
  simp only [deriv_111_0, deriv_111_1, deriv_111_2, List.getD_cons_zero, List.getD_cons_succ]
  have := mix_pos hv (mix_pos hu h1 h2) (mix_pos hu h3 h4)
  refine lt_of_lt_of_eq this ?_
  ring

set_option maxHeartbeats 4000000 in
/-- All patches of `HollowOctagonExtrude` are regular and right-handed. -/
theorem hollow_octagon_extrude_oriented (contact : ℝ) (closure : Option String) (p : Option (Mat ℝ)) (s : Option (List (Mat ℝ))) (T : Tile ℝ)
    (h : createHollowOctagonExtrude contact closure p s = some T) : Oriented 3 T.splines := by
  obtain ⟨p, -, ⟨hp0, hp'⟩, ⟨hc, hc'⟩, e⟩ := extrude_cases h
  rw [e]
  generalize contact = c at *
  have hp : 0 < p := by linarith
  have x : 0 < 1 / 2 - p := by linarith
  have k : 0 < 1 - c := by linarith
  have y : 0 < 1 / 2 - c * p := by nlinarith
  have q1 := mul_pos x hc
  have q2 := mul_pos x k
  have q3 := mul_pos hp k
  have q4 := mul_pos hp hc
  have q5 := mul_pos x q3
  have q6 := mul_pos x q4
  have q7 := mul_pos q5 hc
  have q8 := mul_pos q6 hc
  have q9 := mul_pos y k
  have q10 := mul_pos y q3
  have q11 := mul_pos q1 hc
  have q12 := mul_pos q2 hc
  intro P hP
  simp only [hollowOctagonExtrude, List.mem_cons, List.not_mem_nil, or_false] at hP
  rcases hP with rfl | rfl | rfl | rfl | rfl | rfl | rfl | rfl <;>
    refine right_extruded ?_ ?_ ?_ ?_ <;> linarith

example : ∃ T, createHollowOctagonExtrude (1 / 5 : ℝ) none (some [[1 / 4]]) none = some T := by
  simp only [createHollowOctagonExtrude]
  rw [if_pos]
  · exact ⟨_, rfl⟩
  · simp [checkParams, entry]
    norm_num

end Splinepy.Tiles
