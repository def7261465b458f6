import Verif.Props.TileInverse

/-!
C107 for `InverseCross3D`: the patches in the corners of the cell are degenerate or left-handed.
-/

namespace Splinepy.Tiles

open Spec Splinepy.Spec

set_option maxHeartbeats 1000000

theorem edge_222_x (p0 p1 p2 p3 p4 p5 p6 p7 p8 p9 p10 p11 p12 p13 p14 p15 p16 p17 p18 p19 p20 p21 p22 p23 p24 p25 p26 : List ℝ) (x : ℝ) (j : ℕ) :
    point (bezier ⟨[2, 2, 2], [p0, p1, p2, p3, p4, p5, p6, p7, p8, p9, p10, p11, p12, p13, p14, p15, p16, p17, p18, p19, p20, p21, p22, p23, p24, p25, p26]⟩) [x, 1, 0] j =
      (1 - x) * ((1 - x) * p6.getD j 0 + x * p7.getD j 0) + x * ((1 - x) * p7.getD j 0 + x * p8.getD j 0) := by
  simp [point, value, bezier, netSize, directions, Direction.size, basisValues, Direction.basis, tensorEval, basisProduct, digits, bernstein, List.range_succ, Nat.choose]
  ring

theorem edge_222_y (p0 p1 p2 p3 p4 p5 p6 p7 p8 p9 p10 p11 p12 p13 p14 p15 p16 p17 p18 p19 p20 p21 p22 p23 p24 p25 p26 : List ℝ) (x : ℝ) (j : ℕ) :
    point (bezier ⟨[2, 2, 2], [p0, p1, p2, p3, p4, p5, p6, p7, p8, p9, p10, p11, p12, p13, p14, p15, p16, p17, p18, p19, p20, p21, p22, p23, p24, p25, p26]⟩) [1, x, 0] j =
      (1 - x) * ((1 - x) * p2.getD j 0 + x * p5.getD j 0) + x * ((1 - x) * p5.getD j 0 + x * p8.getD j 0) := by
  simp [point, value, bezier, netSize, directions, Direction.size, basisValues, Direction.basis, tensorEval, basisProduct, digits, bernstein, List.range_succ, Nat.choose]
  ring

theorem edge_222_z (p0 p1 p2 p3 p4 p5 p6 p7 p8 p9 p10 p11 p12 p13 p14 p15 p16 p17 p18 p19 p20 p21 p22 p23 p24 p25 p26 : List ℝ) (x : ℝ) (j : ℕ) :
    point (bezier ⟨[2, 2, 2], [p0, p1, p2, p3, p4, p5, p6, p7, p8, p9, p10, p11, p12, p13, p14, p15, p16, p17, p18, p19, p20, p21, p22, p23, p24, p25, p26]⟩) [1, 1, x] j =
      (1 - x) * ((1 - x) * p8.getD j 0 + x * p17.getD j 0) + x * ((1 - x) * p17.getD j 0 + x * p26.getD j 0) := by
  simp [point, value, bezier, netSize, directions, Direction.size, basisValues, Direction.basis, tensorEval, basisProduct, digits, bernstein, List.range_succ, Nat.choose]
  ring

/-- the Jacobian determinant in the corner of a patch, from the edges -/
theorem det_222 (p0 p1 p2 p3 p4 p5 p6 p7 p8 p9 p10 p11 p12 p13 p14 p15 p16 p17 p18 p19 p20 p21 p22 p23 p24 p25 p26 : List ℝ) (h6 : p6.getD 2 0 = p8.getD 2 0) (h7 : p7.getD 2 0 = p8.getD 2 0) (h2 : p2.getD 2 0 = p8.getD 2 0) (h5 : p5.getD 2 0 = p8.getD 2 0) :
    (jacobian ⟨[2, 2, 2], [p0, p1, p2, p3, p4, p5, p6, p7, p8, p9, p10, p11, p12, p13, p14, p15, p16, p17, p18, p19, p20, p21, p22, p23, p24, p25, p26]⟩ 3 [1, 1, 0]).det =
      8 * ((p8.getD 0 0 - p7.getD 0 0) * (p8.getD 1 0 - p5.getD 1 0) - (p8.getD 1 0 - p7.getD 1 0) * (p8.getD 0 0 - p5.getD 0 0)) * (p17.getD 2 0 - p8.getD 2 0) := by
  rw [det_three]
  simp only [edge_222_x, edge_222_y, edge_222_z]
  simp only [deriv_bern2 _ _ _ _ (fun x => rfl)]
  rw [h7, h5, h6, h2]
  ring

/-- The patch of `InverseCross3D` in the corner of the cell at the origin: at the end of its edge on the branch the Jacobian determinant is not positive, if the branch is thick
compared with the separator distance. -/
theorem inverse_cross_3D_corner (expansion bound fill : ℝ) (separator : Option ℝ) (p : Option (Mat ℝ)) (ss : Option (List (Mat ℝ))) (T : Tile ℝ)
    (h : createInverseCross3D expansion bound fill separator none p ss = some T) (hs : separator.getD (3 / 10) ≤ 1 / 2)
    (hr : 3 * separator.getD (3 / 10) - 1 / 2 ≤ 2 * entry (p.getD (constant 6 1 (1 / 5))) 4 0) :
    ∃ P ∈ T.splines, InDomain (bezier P) [1, 1, 0] ∧ (jacobian P 3 [1, 1, 0]).det ≤ 0 ∧
      (separator.getD (3 / 10) < 1 / 2 → inverseCenter expansion (p.getD (constant 6 1 (1 / 5))) < 1 / 2 →
        3 * separator.getD (3 / 10) - 1 / 2 < 2 * entry (p.getD (constant 6 1 (1 / 5))) 4 0 → (jacobian P 3 [1, 1, 0]).det < 0) := by
  obtain ⟨s, a, b, c, e, f, g, rfl, ep, hx, ⟨ha, hb, hc, he, hf, hg⟩, hT⟩ := inverse_cases h
  have hm := center_le ha hb hc he hf hg hx.1
  rw [ep] at hr ⊢
  simp only [inverseCenter, entry, List.getD_cons_zero, List.getD_cons_succ] at hr ⊢
  generalize separator.getD (3 / 10) = s at *
  generalize (a + b + c + e + f + g) / 6 * expansion = m at *
  rcases hT with ⟨-, eT⟩ | ⟨-, ⟨h, -⟩ | ⟨h, -⟩⟩
  · rw [eT]
    refine ⟨_, mem_decode 12 (P := ⟨[2, 2, 2], [[0, 0, 0], [3, 0, 0], [2, 0, 0], [0, 3, 0], [3, 3, 0], [2, 3, 0], [0, 2, 0], [3, 2, 0], [26, 26, 0], [0, 0, 3], [3, 0, 3], [2, 0, 3], [0, 3, 3], [5, 5, 5], [2, 5, 5], [0, 2, 3], [5, 2, 5], [28, 28, 5], [0, 0, 2], [3, 0, 2], [4, 0, 4], [0, 3, 2], [5, 5, 2], [6, 5, 6], [0, 7, 7], [5, 8, 8], [9, 9, 9]]⟩) (by decide +kernel), ?_, ?_⟩
    · exact (inDomain_bezier _ _).2 ⟨rfl, by simp⟩
    · have d : (jacobian (decodePatch (look (inverseVals s m a b c e f g)) ⟨[2, 2, 2], [[0, 0, 0], [3, 0, 0], [2, 0, 0], [0, 3, 0], [3, 3, 0], [2, 3, 0], [0, 2, 0], [3, 2, 0], [26, 26, 0], [0, 0, 3], [3, 0, 3], [2, 0, 3], [0, 3, 3], [5, 5, 5], [2, 5, 5], [0, 2, 3], [5, 2, 5], [28, 28, 5], [0, 0, 2], [3, 0, 2], [4, 0, 4], [0, 3, 2], [5, 5, 2], [6, 5, 6], [0, 7, 7], [5, 8, 8], [9, 9, 9]]⟩) 3 [1, 1, 0]).det =
          8 * ((1 / 2 - s) * (1 - 2 * f - 3 * (1 / 2 - s))) * (1 / 2 - 1 / 2 * (1 / 2 + m)) := by
        simp only [decodePatch, List.map_cons, List.map_nil, look, inverseVals, inverseCross3DTable, List.getD_cons_zero, List.getD_cons_succ]
        rw [det_222]
        rotate_left
        · rfl
        · rfl
        · rfl
        · rfl
        simp only [List.getD_cons_zero, List.getD_cons_succ]
        ring
      rw [d]
      refine ⟨?_, fun h1 h2 h3 => ?_⟩
      · have k1 : 0 ≤ (1 / 2 - s) * (2 * f - (3 * s - 1 / 2)) := mul_nonneg (by linarith) (by linarith)
        have k2 := mul_nonneg k1 (show 0 ≤ 1 / 2 - 1 / 2 * (1 / 2 + m) by linarith [hm.2])
        linarith
      · have k1 : 0 < (1 / 2 - s) * (2 * f - (3 * s - 1 / 2)) := mul_pos (by linarith) (by linarith)
        have k2 := mul_pos k1 (show 0 < 1 / 2 - 1 / 2 * (1 / 2 + m) by linarith)
        linarith
  · cases h
  · cases h

/-- With the default separator distance no accepted ordinary tile of `InverseCross3D` is regular and right-handed. -/
theorem inverse_cross_3D_oriented_violates (expansion bound fill : ℝ) (p : Option (Mat ℝ)) (ss : Option (List (Mat ℝ))) (T : Tile ℝ)
    (h : createInverseCross3D expansion bound fill none none p ss = some T) : ¬ Oriented 3 T.splines := by
  have hr : 3 * (none : Option ℝ).getD (3 / 10) - 1 / 2 ≤ 2 * entry (p.getD (constant 6 1 (1 / 5))) 4 0 := by
    obtain ⟨s, a, b, c, e, f, g, rfl, ep, hx, ⟨ha, hb, hc, he, hf, hg⟩, hT⟩ := inverse_cases h
    rw [ep]
    have := hf.1
    simp only [Option.getD_none, entry, List.getD_cons_zero, List.getD_cons_succ] at this ⊢
    linarith
  obtain ⟨P, hP, hd, hj, -⟩ := inverse_cross_3D_corner expansion bound fill none p ss T h (by norm_num) hr
  intro hO
  exact absurd ((hO P hP).2.2 _ hd) (not_lt.2 hj)

/-- With the default separator distance and a radius above its default, 1/5, on the lower `z` side, the map of a patch turns over: its Jacobian determinant is negative at a corner. -/
theorem inverse_cross_3D_tangled (expansion bound fill : ℝ) (p : Mat ℝ) (ss : Option (List (Mat ℝ))) (T : Tile ℝ)
    (h : createInverseCross3D expansion bound fill none none (some p) ss = some T) (hr : 1 / 5 < entry p 4 0) :
    ∃ P ∈ T.splines, ∃ u, InDomain (bezier P) u ∧ (jacobian P 3 u).det < 0 := by
  have hc : inverseCenter expansion p < 1 / 2 := by
    obtain ⟨s, a1, a2, a3, a4, a5, a6, rfl, ep, hx, ⟨h1, h2, h3, h4, h5, h6⟩, -⟩ := inverse_cases h
    rw [Option.getD_some] at ep
    subst ep
    simp only [inverseCenter, entry, List.getD_cons_zero, List.getD_cons_succ, Option.getD_none] at *
    have l : ∀ {r : ℝ}, RadiusOk expansion (3 / 10) r → r ≤ 3 / 10 := fun h => h.2.2.2.2
    have k : (a1 + a2 + a3 + a4 + a5 + a6) / 6 ≤ 3 / 10 := by linarith [l h1, l h2, l h3, l h4, l h5, l h6]
    have : (a1 + a2 + a3 + a4 + a5 + a6) / 6 * expansion ≤ 3 / 10 * expansion := mul_le_mul_of_nonneg_right k (by linarith [hx.1])
    linarith [hx.2]
  have e : (none : Option ℝ).getD (3 / 10) = 3 / 10 := rfl
  obtain ⟨P, hP, hd, -, hj⟩ := inverse_cross_3D_corner expansion bound fill none (some p) ss T h (by rw [e]; norm_num) (by rw [e, Option.getD_some]; linarith)
  rw [e, Option.getD_some] at hj
  exact ⟨P, hP, _, hd, hj (by norm_num) hc (by linarith)⟩

example : ∃ T, createInverseCross3D (1 : ℝ) (1 / 10) (1 / 2) none none (some [[1 / 5], [1 / 5], [1 / 5], [1 / 5], [1 / 4], [1 / 5]]) none = some T := by
  simp only [createInverseCross3D]
  rw [if_pos]
  · exact ⟨_, rfl⟩
  · simp [checkParams, radiiBetween]
    norm_num

end Splinepy.Tiles
