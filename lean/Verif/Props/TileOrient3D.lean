import Verif.Props.TileOrient

/-!
C107: the patches of a tile are regular and right-handed, three dimensional tiles.
-/

namespace Splinepy.Tiles

open Spec Splinepy.Spec

theorem block_right {x0 x1 y0 y1 z0 z1 : ℝ} (hx : x0 < x1) (hy : y0 < y1) (hz : z0 < z1) : RightHanded 3 (block x0 x1 y0 y1 z0 z1) := by
  refine oriented_three rfl (by simp [block]) fun u v w hu hv hw =>
    det_x (pos_111_0 ?_ hu hv hw) (pos_111_1 ?_ hu hv hw) (pos_111_2 ?_ hu hv hw) (flat_111_1 ?_) (flat_111_1 ?_) (flat_111_2 ?_) (flat_111_2 ?_) <;> simp [hx, hy, hz]

/-- arm along the first axis -/
theorem arm_211 {x0 x1 x2 m r0 r1 r2 : ℝ} (h1 : x0 < x1) (h2 : x1 < x2) (g0 : 0 < r0) (g1 : 0 < r1) (g2 : 0 < r2) :
    RightHanded 3 ⟨[2, 1, 1], [[x0, m - r0, m - r0], [x1, m - r1, m - r1], [x2, m - r2, m - r2], [x0, m + r0, m - r0], [x1, m + r1, m - r1], [x2, m + r2, m - r2],
      [x0, m - r0, m + r0], [x1, m - r1, m + r1], [x2, m - r2, m + r2], [x0, m + r0, m + r0], [x1, m + r1, m + r1], [x2, m + r2, m + r2]]⟩ := by
  have e0 : m - r0 < m + r0 := by linarith
  have e1 : m - r1 < m + r1 := by linarith
  have e2 : m - r2 < m + r2 := by linarith
  refine oriented_three rfl (by simp) fun u v w hu hv hw =>
    det_x (pos_211_0 ?_ hu hv hw) (pos_211_1 ?_ hu hv hw) (pos_211_2 ?_ hu hv hw) (flat_211_1 ?_) (flat_211_1 ?_) (flat_211_2 ?_) (flat_211_2 ?_)
  all_goals simp only [List.getD_cons_zero, List.getD_cons_succ, sub_pos, sub_self, h1, h2, e0, e1, e2, and_self]

/-- arm along the second axis -/
theorem arm_121 {x0 x1 x2 m r0 r1 r2 : ℝ} (h1 : x0 < x1) (h2 : x1 < x2) (g0 : 0 < r0) (g1 : 0 < r1) (g2 : 0 < r2) :
    RightHanded 3 ⟨[1, 2, 1], [[m - r0, x0, m - r0], [m + r0, x0, m - r0], [m - r1, x1, m - r1], [m + r1, x1, m - r1], [m - r2, x2, m - r2], [m + r2, x2, m - r2],
      [m - r0, x0, m + r0], [m + r0, x0, m + r0], [m - r1, x1, m + r1], [m + r1, x1, m + r1], [m - r2, x2, m + r2], [m + r2, x2, m + r2]]⟩ := by
  have e0 : m - r0 < m + r0 := by linarith
  have e1 : m - r1 < m + r1 := by linarith
  have e2 : m - r2 < m + r2 := by linarith
  refine oriented_three rfl (by simp) fun u v w hu hv hw =>
    det_y (pos_121_0 ?_ hu hv hw) (pos_121_1 ?_ hu hv hw) (pos_121_2 ?_ hu hv hw) (flat_121_0 ?_) (flat_121_0 ?_) (flat_121_2 ?_) (flat_121_2 ?_)
  all_goals simp only [List.getD_cons_zero, List.getD_cons_succ, sub_pos, sub_self, h1, h2, e0, e1, e2, and_self]

/-- arm along the third axis -/
theorem branch_right {r0 r1 r2 z0 z1 z2 : ℝ} (h1 : z0 < z1) (h2 : z1 < z2) (g0 : 0 < r0) (g1 : 0 < r1) (g2 : 0 < r2) : RightHanded 3 (branch r0 r1 r2 z0 z1 z2) := by
  have e0 : 1 / 2 - r0 < 1 / 2 + r0 := by linarith
  have e1 : 1 / 2 - r1 < 1 / 2 + r1 := by linarith
  have e2 : 1 / 2 - r2 < 1 / 2 + r2 := by linarith
  refine oriented_three rfl (by simp [branch]) fun u v w hu hv hw =>
    det_z (pos_112_0 ?_ hu hv hw) (pos_112_1 ?_ hu hv hw) (pos_112_2 ?_ hu hv hw) (flat_112_0 ?_) (flat_112_0 ?_) (flat_112_1 ?_) (flat_112_1 ?_)
  all_goals simp only [List.getD_cons_zero, List.getD_cons_succ, sub_pos, sub_self, h1, h2, e0, e1, e2, and_self]

theorem linear_x {x0 x2 m r0 r2 : ℝ} (h : x0 < x2) (g0 : 0 < r0) (g2 : 0 < r2) :
    RightHanded 3 ⟨[1, 1, 1], [[x0, m - r0, m - r0], [x2, m - r2, m - r2], [x0, m + r0, m - r0], [x2, m + r2, m - r2],
      [x0, m - r0, m + r0], [x2, m - r2, m + r2], [x0, m + r0, m + r0], [x2, m + r2, m + r2]]⟩ := by
  have e0 : m - r0 < m + r0 := by linarith
  have e2 : m - r2 < m + r2 := by linarith
  refine oriented_three rfl (by simp) fun u v w hu hv hw =>
    det_x (pos_111_0 ?_ hu hv hw) (pos_111_1 ?_ hu hv hw) (pos_111_2 ?_ hu hv hw) (flat_111_1 ?_) (flat_111_1 ?_) (flat_111_2 ?_) (flat_111_2 ?_)
  all_goals simp only [List.getD_cons_zero, List.getD_cons_succ, sub_pos, sub_self, h, e0, e2, and_self]

theorem linear_y {x0 x2 m r0 r2 : ℝ} (h : x0 < x2) (g0 : 0 < r0) (g2 : 0 < r2) :
    RightHanded 3 ⟨[1, 1, 1], [[m - r0, x0, m - r0], [m + r0, x0, m - r0], [m - r2, x2, m - r2], [m + r2, x2, m - r2],
      [m - r0, x0, m + r0], [m + r0, x0, m + r0], [m - r2, x2, m + r2], [m + r2, x2, m + r2]]⟩ := by
  have e0 : m - r0 < m + r0 := by linarith
  have e2 : m - r2 < m + r2 := by linarith
  refine oriented_three rfl (by simp) fun u v w hu hv hw =>
    det_y (pos_111_0 ?_ hu hv hw) (pos_111_1 ?_ hu hv hw) (pos_111_2 ?_ hu hv hw) (flat_111_0 ?_) (flat_111_0 ?_) (flat_111_2 ?_) (flat_111_2 ?_)
  all_goals simp only [List.getD_cons_zero, List.getD_cons_succ, sub_pos, sub_self, h, e0, e2, and_self]

theorem linear_z {r0 r2 z0 z2 : ℝ} (h : z0 < z2) (g0 : 0 < r0) (g2 : 0 < r2) : RightHanded 3 (branchLinear r0 r2 z0 z2) := by
  have e0 : 1 / 2 - r0 < 1 / 2 + r0 := by linarith
  have e2 : 1 / 2 - r2 < 1 / 2 + r2 := by linarith
  refine oriented_three rfl (by simp [branchLinear]) fun u v w hu hv hw =>
    det_z (pos_111_0 ?_ hu hv hw) (pos_111_1 ?_ hu hv hw) (pos_111_2 ?_ hu hv hw) (flat_111_0 ?_) (flat_111_0 ?_) (flat_111_1 ?_) (flat_111_1 ?_)
  all_goals simp only [List.getD_cons_zero, List.getD_cons_succ, sub_pos, sub_self, h, e0, e2, and_self]

/-! ### `Cross3D` and `Cross3DLinear` -/

/-- the patches of the two tiles, with a center which does not reach the boundary of the cell -/
theorem cross3D_patches {m a b c d e f : ℝ} (hm : 0 < m) (hm' : m < 1 / 2) (ha : 0 < a) (hb : 0 < b) (hc : 0 < c) (hd : 0 < d) (he : 0 < e) (hf : 0 < f) :
    Oriented 3 (cross3D (1 / 2) m (1 / 2 * (1 / 2 + m)) a b c d e f) ∧ Oriented 3 (cross3DLinear (1 / 2) m a b c d e f) := by
  have l1 : -(1 / 2) + 1 / 2 < -(1 / 2 * (1 / 2 + m)) + 1 / 2 := by linarith
  have l2 : -(1 / 2 * (1 / 2 + m)) + 1 / 2 < -m + 1 / 2 := by linarith
  have l3 : m + 1 / 2 < 1 / 2 * (1 / 2 + m) + 1 / 2 := by linarith
  have l4 : 1 / 2 * (1 / 2 + m) + 1 / 2 < 1 / 2 + 1 / 2 := by linarith
  constructor <;> intro P hP <;>
    simp only [cross3D, cross3DLinear, row, shift, List.map_cons, List.map_nil, List.zipWith_cons_cons, List.zipWith_nil_left, List.getD_cons_zero,
      List.getD_cons_succ, List.mem_cons, List.not_mem_nil, or_false] at hP
  · rcases hP with rfl | rfl | rfl | rfl | rfl | rfl | rfl
    · exact block_right (by linarith) (by linarith) (by linarith)
    · simpa only [sub_eq_add_neg, add_comm] using arm_211 (m := 1 / 2) l1 l2 ha ha hm
    · simpa only [sub_eq_add_neg, add_comm] using arm_211 (m := 1 / 2) l3 l4 hm hb hb
    · simpa only [sub_eq_add_neg, add_comm] using arm_121 (m := 1 / 2) l1 l2 hc hc hm
    · simpa only [sub_eq_add_neg, add_comm] using arm_121 (m := 1 / 2) l3 l4 hm hd hd
    · simpa only [branch, sub_eq_add_neg, add_comm] using branch_right l1 l2 he he hm
    · simpa only [branch, sub_eq_add_neg, add_comm] using branch_right l3 l4 hm hf hf
  · rcases hP with rfl | rfl | rfl | rfl | rfl | rfl | rfl
    · exact block_right (by linarith) (by linarith) (by linarith)
    · simpa only [sub_eq_add_neg, add_comm] using linear_x (m := 1 / 2) (l1.trans l2) ha hm
    · simpa only [sub_eq_add_neg, add_comm] using linear_x (m := 1 / 2) (l3.trans l4) hm hb
    · simpa only [sub_eq_add_neg, add_comm] using linear_y (m := 1 / 2) (l1.trans l2) hc hm
    · simpa only [sub_eq_add_neg, add_comm] using linear_y (m := 1 / 2) (l3.trans l4) hm hd
    · simpa only [branchLinear, sub_eq_add_neg, add_comm] using linear_z (l1.trans l2) he hm
    · simpa only [branchLinear, sub_eq_add_neg, add_comm] using linear_z (l3.trans l4) hm hf

/-- mean of the six radii of a cross -/
noncomputable def Spec.meanRadius (p : Mat ℝ) : ℝ := ((p.map fun r => r.getD 0 0).sum) / 6

/-- `Cross3D` without closing face: right-handed as long as the cube in the middle does not fill the whole cell. The tile accepts radii equal to the bound
`min 0.5 (0.5 / center_expansion)`; if all of them are, the middle fills the cell (see `cross3D_oriented_violates`). -/
theorem cross3D_oriented_partial (expansion bound fill : ℝ) (p : Mat ℝ) (s : Option (List (Mat ℝ))) (T : Tile ℝ)
    (h : createCross3D expansion bound fill none (some p) s = some T) (hm : expansion * meanRadius p < 1 / 2) : Oriented 3 T.splines := by
  simp only [createCross3D, Option.ite_none_right_eq_some, Bool.and_eq_true, decide_eq_true_eq, Option.some.injEq, Option.getD_some] at h
  obtain ⟨⟨⟨⟨⟨g1, g2⟩, hp⟩, hw⟩, _⟩, rfl⟩ := h
  obtain ⟨a, b, c, d, e, f, rfl⟩ := params_six hp
  simp [withinClosed] at hw
  obtain ⟨⟨ha, -⟩, ⟨hb, -⟩, ⟨hc, -⟩, ⟨hd, -⟩, ⟨he, -⟩, hf, -⟩ := hw
  have eq : meanRadius [[a], [b], [c], [d], [e], [f]] = (a + b + c + d + e + f) / 6 := by simp [meanRadius]; ring
  rw [eq] at hm
  exact (cross3D_patches (m := expansion * ((a + b + c + d + e + f) / 6)) (by positivity) hm ha hb hc hd he hf).1

/-- `Cross3DLinear`, the same. -/
theorem cross3DLinear_oriented_partial (expansion bound fill : ℝ) (p : Mat ℝ) (s : Option (List (Mat ℝ))) (T : Tile ℝ)
    (h : createCross3DLinear expansion bound fill none (some p) s = some T) (hm : expansion * meanRadius p < 1 / 2) : Oriented 3 T.splines := by
  simp only [createCross3DLinear, Option.ite_none_right_eq_some, Bool.and_eq_true, decide_eq_true_eq, Option.some.injEq, Option.getD_some] at h
  obtain ⟨⟨⟨⟨⟨g1, g2⟩, hp⟩, hw⟩, _⟩, rfl⟩ := h
  obtain ⟨a, b, c, d, e, f, rfl⟩ := params_six hp
  simp [withinClosed] at hw
  obtain ⟨⟨ha, -⟩, ⟨hb, -⟩, ⟨hc, -⟩, ⟨hd, -⟩, ⟨he, -⟩, hf, -⟩ := hw
  have eq : meanRadius [[a], [b], [c], [d], [e], [f]] = (a + b + c + d + e + f) / 6 := by simp [meanRadius]; ring
  rw [eq] at hm
  exact (cross3D_patches (m := expansion * ((a + b + c + d + e + f) / 6)) (by positivity) hm ha hb hc hd he hf).2

theorem blocks_oriented {w z0 z1 : ℝ} (hw : 0 < w ∧ w < 1 / 2) (hz : z0 < z1) : Oriented 3 (blocks w (max (w - (1 - 2 * w)) 0) (min (1 - w + (1 - 2 * w)) 1) z0 z1) := by
  have lo : max (w - (1 - 2 * w)) 0 < w := max_lt (by linarith [hw.2]) hw.1
  have hi : 1 - w < min (1 - w + (1 - 2 * w)) 1 := lt_min (by linarith [hw.2]) (by linarith [hw.1])
  have h0 := hw.1
  have h1 : 1 - w < 1 := by linarith
  have h2 : w < 1 - w := by linarith [hw.2]
  intro P hP
  simp only [blocks, List.mem_cons, List.not_mem_nil, or_false] at hP
  rcases hP with rfl | rfl | rfl | rfl | rfl | rfl | rfl | rfl | rfl <;> apply block_right <;> assumption

/-- Closing tiles of `Cross3D`. -/
theorem cross3D_closing_oriented (expansion bound fill : ℝ) (closure : String) (p : Option (Mat ℝ)) (s : Option (List (Mat ℝ))) (T : Tile ℝ)
    (h : createCross3D expansion bound fill (some closure) p s = some T) : Oriented 3 T.splines := by
  simp only [createCross3D, Option.ite_none_right_eq_some, Bool.and_eq_true, decide_eq_true_eq] at h
  obtain ⟨⟨⟨⟨_, hp⟩, _⟩, _⟩, h⟩ := h
  simp only [cross3DClosing, Option.ite_none_right_eq_some, Bool.and_eq_true, decide_eq_true_eq] at h
  obtain ⟨⟨⟨⟨hw, _⟩, g1, g2⟩, g3, g4⟩, h⟩ := h
  generalize p.getD (constant 6 1 (1 / 5)) = p at *
  obtain ⟨a, b, c, d, e, f, rfl⟩ := params_six hp
  simp [within] at hw
  obtain ⟨-, -, -, -, ⟨he, -⟩, hf, -⟩ := hw
  cases ht : cross3DCloseBranch closure (closeValues cross3DCloseZMin bound fill) (closeValues cross3DCloseZMax bound fill) [[a], [b], [c], [d], [e], [f]] with
  | none => simp [ht] at h
  | some t =>
    simp only [ht, Option.some.injEq] at h
    subst h
    simp only [cross3DCloseBranch] at ht
    have hr : 0 < (1 - 2 * bound) * (1 / 2) := by linarith
    split_ifs at ht with e1 e2 <;> rw [Option.some.injEq] at ht <;> subst ht <;> intro P hP
    · simp only [assemble, (close_z_min_eq bound fill _ ⟨g1, g2⟩ ⟨g3, g4⟩).1, List.mem_append, List.mem_singleton] at hP
      rcases hP with hP | rfl
      · exact blocks_oriented ⟨g1, g2⟩ g3 P hP
      · exact branch_right (by linarith) (by linarith) hr hf hf
    · simp only [assemble, (close_z_max_eq bound fill _ ⟨g1, g2⟩ ⟨g3, g4⟩).1, List.mem_append, List.mem_singleton] at hP
      rcases hP with hP | rfl
      · exact blocks_oriented ⟨g1, g2⟩ (by linarith) P hP
      · exact branch_right (by linarith) (by linarith) he he hr

/-- Closing tiles of `Cross3DLinear`. -/
theorem cross3DLinear_closing_oriented (expansion bound fill : ℝ) (closure : String) (p : Option (Mat ℝ)) (s : Option (List (Mat ℝ))) (T : Tile ℝ)
    (h : createCross3DLinear expansion bound fill (some closure) p s = some T) : Oriented 3 T.splines := by
  simp only [createCross3DLinear, Option.ite_none_right_eq_some, Bool.and_eq_true, decide_eq_true_eq] at h
  obtain ⟨⟨⟨⟨_, hp⟩, _⟩, _⟩, h⟩ := h
  simp only [cross3DLinearClosing, Option.ite_none_right_eq_some, Bool.and_eq_true, decide_eq_true_eq] at h
  obtain ⟨⟨⟨⟨hw, _⟩, g1, g2⟩, g3, g4⟩, h⟩ := h
  generalize p.getD (constant 6 1 (1 / 5)) = p at *
  obtain ⟨a, b, c, d, e, f, rfl⟩ := params_six hp
  simp [within] at hw
  obtain ⟨-, -, -, -, ⟨he, -⟩, hf, -⟩ := hw
  cases ht : cross3DCloseBranch closure (closeValues cross3DLinearCloseZMin bound fill) (closeValues cross3DLinearCloseZMax bound fill) [[a], [b], [c], [d], [e], [f]] with
  | none => simp [ht] at h
  | some t =>
    simp only [ht, Option.some.injEq] at h
    subst h
    simp only [cross3DCloseBranch] at ht
    have hr : 0 < (1 - 2 * bound) * (1 / 2) := by linarith
    split_ifs at ht with e1 e2 <;> rw [Option.some.injEq] at ht <;> subst ht <;> intro P hP
    · simp only [assemble, (close_z_min_eq bound fill _ ⟨g1, g2⟩ ⟨g3, g4⟩).2, List.mem_append, List.mem_singleton] at hP
      rcases hP with hP | rfl
      · exact blocks_oriented ⟨g1, g2⟩ g3 P hP
      · exact linear_z (by linarith) hr hf
    · simp only [assemble, (close_z_max_eq bound fill _ ⟨g1, g2⟩ ⟨g3, g4⟩).2, List.mem_append, List.mem_singleton] at hP
      rcases hP with hP | rfl
      · exact blocks_oriented ⟨g1, g2⟩ (by linarith) P hP
      · exact linear_z (by linarith) he hr

/-- The bound of the radii is accepted by both tiles (`parameters > max_radius` is the check). With all radii at the bound and `center_expansion ≥ 1` (the default is `1`) the
middle fills the cell, and an arm has no volume: its Jacobian determinant vanishes everywhere. -/
theorem cross3D_oriented_violates (expansion bound fill : ℝ) (h1 : 1 ≤ expansion) (h2 : expansion < 3 / 2) :
    ∃ T, createCross3D expansion bound fill none (some (constant 6 1 (1 / 2 / expansion))) none = some T ∧
      ∃ P ∈ T.splines, ∀ u v w : ℝ, (jacobian P 3 [u, v, w]).det = 0 := by
  have he : 0 < expansion := by linarith
  have hc : createCross3D expansion bound fill none (some (constant 6 1 (1 / 2 / expansion))) none =
      some (assemble (cross3DTile expansion (constant 6 1 (1 / 2 / expansion))) (cross3DDerivative expansion) none) := by
    have hmin : min (1 / 2 : ℝ) (1 / 2 / expansion) = 1 / 2 / expansion := min_eq_right (by rw [div_le_iff₀ he]; nlinarith)
    have hpos : 0 < 1 / 2 / expansion := by positivity
    simp only [createCross3D, Option.getD_some, hmin]
    generalize 1 / 2 / expansion = r at *
    rw [if_pos]
    simp [checkParams, constant, withinClosed, checkDerivatives, h2, hpos]
    linarith
  refine ⟨_, hc, _, List.mem_cons_of_mem _ List.mem_cons_self, fun u v w => ?_⟩
  have hm : expansion * ((1 / 2 / expansion + 1 / 2 / expansion + 1 / 2 / expansion + 1 / 2 / expansion + 1 / 2 / expansion + 1 / 2 / expansion) / 6) = 1 / 2 := by
    field_simp
    norm_num
  simp only [cross3DCenter, entry, constant, List.replicate, List.getD_cons_zero, List.getD_cons_succ, hm, row, shift, List.map_cons, List.map_nil, List.zipWith_cons_cons,
    List.zipWith_nil_left]
  rw [det_three]
  simp only
  rw [flat_211_0 (j := 0) (by norm_num), flat_211_1 (j := 0) (by norm_num), flat_211_2 (j := 0) (by norm_num)]
  ring

/-! ### `HollowCube` -/

/-- Every `HollowCube` mixes both orientations: for all accepted parameters the determinant of the first patch is negative at the corner `(1, 1, 0)` of its parametric
domain, that of the fifth patch is positive at the corner `(1, 1, 0)`. -/
theorem hollow_cube_oriented_violates (closure : Option String) (p : Option (Mat ℝ)) (s : Option (List (Mat ℝ))) (T : Tile ℝ) (h : createHollowCube closure p s = some T) :
    ∃ P ∈ T.splines, ∃ Q ∈ T.splines, (jacobian P 3 [1, 1, 0]).det < 0 ∧ 0 < (jacobian Q 3 [1, 1, 0]).det := by
  simp only [createHollowCube, Option.ite_none_right_eq_some, Bool.and_eq_true, Option.some.injEq] at h
  obtain ⟨⟨⟨hp, hw⟩, _⟩, rfl⟩ := h
  generalize p.getD (constant 7 1 (1 / 5)) = p at *
  obtain ⟨a, b, c, d, e, f, g, rfl⟩ := params_seven hp
  simp [within] at hw
  obtain ⟨⟨ha, ha'⟩, ⟨hb, hb'⟩, ⟨hc, hc'⟩, ⟨hd, hd'⟩, ⟨he, he'⟩, ⟨hf, hf'⟩, hg, hg'⟩ := hw
  refine ⟨_, List.mem_cons_self, _, List.mem_cons_of_mem _ (List.mem_cons_of_mem _ (List.mem_cons_of_mem _ (List.mem_cons_of_mem _ List.mem_cons_self))), ?_, ?_⟩
  · rw [det_three]
    simp only [deriv_111_0, deriv_111_1, deriv_111_2, entry, List.getD_cons_zero, List.getD_cons_succ]
    have := mul_pos hb hf
    nlinarith
  · rw [det_three]
    simp only [deriv_111_0, deriv_111_1, deriv_111_2, entry, List.getD_cons_zero, List.getD_cons_succ]
    have := mul_pos hb hd
    nlinarith

example : ∃ T, createHollowCube none (none : Option (Mat ℝ)) none = some T := by
  simp only [createHollowCube]
  rw [if_pos]
  · exact ⟨_, rfl⟩
  · simp [checkParams, within, constant, checkDerivatives]
    norm_num

/-- A single patch of a `HollowCube` may be tangled: its determinant changes its sign. -/
theorem hollow_cube_tangled_violates : ∃ T, createHollowCube none (some [[1 / 10], [2 / 5], [1 / 10], [1 / 5], [1 / 10], [3 / 10], [(1 / 10 : ℝ)]]) none = some T ∧
    ∃ P ∈ T.splines, (∃ u v w : ℝ, (0 ≤ u ∧ u ≤ 1) ∧ (0 ≤ v ∧ v ≤ 1) ∧ (0 ≤ w ∧ w ≤ 1) ∧ (jacobian P 3 [u, v, w]).det < 0) ∧
      ∃ u v w : ℝ, (0 ≤ u ∧ u ≤ 1) ∧ (0 ≤ v ∧ v ≤ 1) ∧ (0 ≤ w ∧ w ≤ 1) ∧ 0 < (jacobian P 3 [u, v, w]).det := by
  have hc : createHollowCube none (some [[1 / 10], [2 / 5], [1 / 10], [1 / 5], [1 / 10], [3 / 10], [(1 / 10 : ℝ)]]) none =
      some (assemble (hollowCubeTile 1 [[1 / 10], [2 / 5], [1 / 10], [1 / 5], [1 / 10], [3 / 10], [(1 / 10 : ℝ)]]) (hollowCubeTile 0) none) := by
    simp only [createHollowCube, Option.getD_some]
    rw [if_pos]
    simp [checkParams, within, checkDerivatives]
    norm_num
  refine ⟨_, hc, _, List.mem_cons_self, ⟨1, 1, 0, by norm_num, by norm_num, by norm_num, ?_⟩, ⟨0, 0, 1, by norm_num, by norm_num, by norm_num, ?_⟩⟩
  · rw [det_three]
    simp only [deriv_111_0, deriv_111_1, deriv_111_2, entry, List.getD_cons_zero, List.getD_cons_succ]
    norm_num
  · rw [det_three]
    simp only [deriv_111_0, deriv_111_1, deriv_111_2, entry, List.getD_cons_zero, List.getD_cons_succ]
    norm_num

/-! ### `CubeVoid` -/

/-- the corners of a void without rotation -/
theorem cube_corners (x y : ℝ) : voidPoints cubeSphere [[x, y, 0, 0]] =
    [[1 / 2 - x / 2, 1 / 2 - y / 2, 1 / 2 - y / 2], [1 / 2 + x / 2, 1 / 2 - y / 2, 1 / 2 - y / 2], [1 / 2 - x / 2, 1 / 2 + y / 2, 1 / 2 - y / 2],
     [1 / 2 + x / 2, 1 / 2 + y / 2, 1 / 2 - y / 2], [1 / 2 - x / 2, 1 / 2 - y / 2, 1 / 2 + y / 2], [1 / 2 + x / 2, 1 / 2 - y / 2, 1 / 2 + y / 2],
     [1 / 2 - x / 2, 1 / 2 + y / 2, 1 / 2 + y / 2], [1 / 2 + x / 2, 1 / 2 + y / 2, 1 / 2 + y / 2]] := by
  have e : rotY (flatEntry [[x, y, 0, 0]] 3) * rotX (flatEntry [[x, y, 0, 0]] 2) * diag3 (flatEntry [[x, y, 0, 0]] 0) (flatEntry [[x, y, 0, 0]] 1) = diag3 x y := by
    simp [flatEntry, rotX, rotY, diag3, Matrix.one_fin_three.symm]
  simp only [voidPoints, e]
  simp [shift, applyRows, cubeSphere, diag3, List.finRange_succ, Fin.sum_univ_three]
  norm_num
  refine ⟨?_, ?_, ?_, ?_⟩ <;> ring_nf <;> trivial

/-- A void without rotation which is strictly inside of the cell. The tile checks neither its size nor its angles. -/
theorem cube_void_oriented_partial (closure : Option String) (x y : ℝ) (hx : 0 < x ∧ x < 1) (hy : 0 < y ∧ y < 1) (s : Option (List (Mat ℝ))) (T : Tile ℝ)
    (h : createCubeVoid closure (some [[x, y, 0, 0]]) s = some T) : Oriented 3 T.splines := by
  obtain ⟨hx, hx'⟩ := hx
  obtain ⟨hy, hy'⟩ := hy
  simp only [createCubeVoid, Option.getD_some, Option.ite_none_right_eq_some, Option.some.injEq] at h
  obtain ⟨-, rfl⟩ := h
  intro P hP
  simp only [assemble, cube_corners, cubeVoid, row, List.getD_cons_zero, List.getD_cons_succ, List.mem_cons, List.not_mem_nil, or_false] at hP
  rcases hP with rfl | rfl | rfl | rfl | rfl | rfl
  · refine oriented_three rfl (by simp) fun u v w hu hv hw =>
      det_z (pos_111_0 ?_ hu hv hw) (pos_111_1 ?_ hu hv hw) (pos_111_2 ?_ hu hv hw) (flat_111_0 ?_) (flat_111_0 ?_) (flat_111_1 ?_) (flat_111_1 ?_)
    all_goals (simp only [List.getD_cons_zero, List.getD_cons_succ]; refine ⟨?_, ?_, ?_, ?_⟩ <;> linarith)
  · refine oriented_three rfl (by simp) fun u v w hu hv hw =>
      det_z (pos_111_0 ?_ hu hv hw) (pos_111_1 ?_ hu hv hw) (pos_111_2 ?_ hu hv hw) (flat_111_0 ?_) (flat_111_0 ?_) (flat_111_1 ?_) (flat_111_1 ?_)
    all_goals (simp only [List.getD_cons_zero, List.getD_cons_succ]; refine ⟨?_, ?_, ?_, ?_⟩ <;> linarith)
  · refine oriented_three rfl (by simp) fun u v w hu hv hw =>
      det_y (pos_111_0 ?_ hu hv hw) (pos_111_1 ?_ hu hv hw) (pos_111_2 ?_ hu hv hw) (flat_111_0 ?_) (flat_111_0 ?_) (flat_111_2 ?_) (flat_111_2 ?_)
    all_goals (simp only [List.getD_cons_zero, List.getD_cons_succ]; refine ⟨?_, ?_, ?_, ?_⟩ <;> linarith)
  · refine oriented_three rfl (by simp) fun u v w hu hv hw =>
      det_y (pos_111_0 ?_ hu hv hw) (pos_111_1 ?_ hu hv hw) (pos_111_2 ?_ hu hv hw) (flat_111_0 ?_) (flat_111_0 ?_) (flat_111_2 ?_) (flat_111_2 ?_)
    all_goals (simp only [List.getD_cons_zero, List.getD_cons_succ]; refine ⟨?_, ?_, ?_, ?_⟩ <;> linarith)
  · refine oriented_three rfl (by simp) fun u v w hu hv hw =>
      det_x (pos_111_0 ?_ hu hv hw) (pos_111_1 ?_ hu hv hw) (pos_111_2 ?_ hu hv hw) (flat_111_1 ?_) (flat_111_1 ?_) (flat_111_2 ?_) (flat_111_2 ?_)
    all_goals (simp only [List.getD_cons_zero, List.getD_cons_succ]; refine ⟨?_, ?_, ?_, ?_⟩ <;> linarith)
  · refine oriented_three rfl (by simp) fun u v w hu hv hw =>
      det_x (pos_111_0 ?_ hu hv hw) (pos_111_1 ?_ hu hv hw) (pos_111_2 ?_ hu hv hw) (flat_111_1 ?_) (flat_111_1 ?_) (flat_111_2 ?_) (flat_111_2 ?_)
    all_goals (simp only [List.getD_cons_zero, List.getD_cons_succ]; refine ⟨?_, ?_, ?_, ?_⟩ <;> linarith)

example : ∃ T, createCubeVoid none (some [[(1 / 3 : ℝ), 3 / 4, 0, 0]]) none = some T := by simp [createCubeVoid, checkDerivatives]

/-- A void which is turned by `π` about the first axis is the same box as without rotation, strictly inside of the cell; but it is joined to the cell with its corners
swapped, and the first patch is tangled. -/
theorem cube_void_oriented_violates (closure : Option String) (x y : ℝ) (hx : 0 < x ∧ x < 1) (hy : 0 < y ∧ y < 1) :
    ∃ T, createCubeVoid closure (some [[x, y, Real.pi, 0]]) none = some T ∧
      ∃ P ∈ T.splines, 0 < (jacobian P 3 [0, 0, 0]).det ∧ (jacobian P 3 [0, 0, 1]).det < 0 := by
  obtain ⟨hx, hx'⟩ := hx
  obtain ⟨hy, hy'⟩ := hy
  refine ⟨assemble (cubeVoid 0 1 (voidPoints cubeSphere [[x, y, Real.pi, 0]])) (fun d => cubeVoid 0 0 (voidDerivatives cubeSphere [[x, y, Real.pi, 0]] d)) none, ?_,
    _, List.mem_cons_self, ?_⟩
  · simp [createCubeVoid, checkDerivatives]
  have e : rotY (flatEntry [[x, y, Real.pi, 0]] 3) * rotX (flatEntry [[x, y, Real.pi, 0]] 2) * diag3 (flatEntry [[x, y, Real.pi, 0]] 0) (flatEntry [[x, y, Real.pi, 0]] 1) =
      !![x, 0, 0; 0, -y, 0; 0, 0, -y] := by
    simp [flatEntry, rotX, rotY, diag3, Matrix.one_fin_three.symm]
  have hrow : ∀ i, row (voidPoints cubeSphere [[x, y, Real.pi, 0]]) i = ([[1 / 2 - x / 2, 1 / 2 + y / 2, 1 / 2 + y / 2], [1 / 2 + x / 2, 1 / 2 + y / 2, 1 / 2 + y / 2],
     [1 / 2 - x / 2, 1 / 2 - y / 2, 1 / 2 + y / 2], [1 / 2 + x / 2, 1 / 2 - y / 2, 1 / 2 + y / 2], [1 / 2 - x / 2, 1 / 2 + y / 2, 1 / 2 - y / 2],
     [1 / 2 + x / 2, 1 / 2 + y / 2, 1 / 2 - y / 2], [1 / 2 - x / 2, 1 / 2 - y / 2, 1 / 2 - y / 2], [1 / 2 + x / 2, 1 / 2 - y / 2, 1 / 2 - y / 2]] : List (List ℝ)).getD i [] := by
    intro i
    rw [row]
    congr 1
    simp only [voidPoints, e]
    simp [shift, applyRows, cubeSphere, List.finRange_succ, Fin.sum_univ_three]
    norm_num
    refine ⟨?_, ?_, ?_, ?_⟩ <;> ring_nf <;> trivial
  rw [hrow, hrow, hrow, hrow, det_three, det_three]
  simp only [deriv_111_0, deriv_111_1, deriv_111_2, List.getD_cons_zero, List.getD_cons_succ]
  have := mul_pos hx hy
  constructor
  · nlinarith
  · have := mul_pos this hy
    nlinarith

/-! ### `Snappy` -/

/-- a strip of constant height over a cubic curve; the abscissae of the inner control points need not increase -/
theorem strip_31 {x0 r m x3 y0 y1 y2 y3 t : ℝ} (hr : 0 < r) (hm : 0 < m + r) (hx : x3 = x0 + r + m + r) (ht : 0 < t) :
    RightHanded 2 ⟨[3, 1], [[x0, y0], [x0 + r, y1], [x3 - r, y2], [x3, y3], [x0, y0 + t], [x0 + r, y1 + t], [x3 - r, y2 + t], [x3, y3 + t]]⟩ := by
  subst hx
  refine oriented_two rfl (by simp) fun u v hu hv => det_xy ?_ (pos_31_1 ?_ hu hv) (Or.inl (flat_31_1 ?_))
  · rw [deriv_31_0]
    simp only [List.getD_cons_zero]
    have h1 : 0 < r * ((1 - u) ^ 2 + u ^ 2) + 2 * m * (u * (1 - u)) := by
      have h2 : 0 ≤ u * (1 - u) := mul_nonneg hu.1 (by linarith [hu.2])
      rcases h2.lt_or_eq with h2 | h2
      · have := mul_pos hm h2
        have := mul_nonneg hr.le (sq_nonneg (1 - 2 * u))
        nlinarith
      · rw [← h2]
        nlinarith [mul_pos hr (show (0 : ℝ) < 1 by norm_num)]
    nlinarith
  all_goals simp [ht]

/-- `Snappy`, with positive `a`, `b` and `r`: the tile accepts zero for them as well, which makes patches without area. -/
theorem snappy_oriented_partial (contact a b c r : ℝ) (ha : 0 < a) (hb : 0 < b) (hr : 0 < r) (closure : Option String) (p : Option (Mat ℝ)) (s : Option (List (Mat ℝ)))
    (T : Tile ℝ) (h : createSnappy contact a b c r closure p s = some T) : Oriented 2 T.splines := by
  simp only [createSnappy, Option.ite_none_right_eq_some, Bool.and_eq_true, decide_eq_true_eq] at h
  obtain ⟨⟨⟨⟨⟨⟨_, g1, g2⟩, g3⟩, g4⟩, _⟩, _⟩, h⟩ := h
  cases closure with
  | some cl => simp [snappyClosing] at h
  | none =>
    simp only [Option.some.injEq] at h
    subst h
    intro P hP
    simp only [snappy, shift, List.map_cons, List.map_nil, List.zipWith_cons_cons, List.zipWith_nil_left, List.mem_cons, List.not_mem_nil, or_false] at hP
    rcases hP with rfl | rfl | rfl | rfl | rfl | rfl | rfl | rfl | rfl | rfl
    · exact rect_11 (by linarith) (by linarith)
    · exact rect_11 (by linarith) (by linarith)
    · exact rect_11 (by linarith) (by linarith)
    · exact rect_11 (by linarith) (by linarith)
    · exact rect_11 (by linarith) (by linarith)
    · exact rect_11 (by linarith) (by linarith)
    · have := strip_31 (x0 := contact * (1 / 2)) (r := r) (m := 1 / 2 - contact - 2 * r) (x3 := 1 / 2 - contact * (1 / 2)) (y0 := 0) (y1 := 0) (y2 := 1 / 2 - b) (y3 := 1 / 2 - b) (t := b)
        hr (by linarith) (by ring) hb
      simpa using this
    · have := strip_31 (x0 := contact * (1 / 2) + 1 / 2) (r := r) (m := 1 / 2 - contact - 2 * r) (x3 := 1 / 2 - contact * (1 / 2) + 1 / 2) (y0 := 1 / 2 - b) (y1 := 1 / 2 - b)
        (y2 := 0) (y3 := 0) (t := b) hr (by linarith) (by ring) hb
      convert this using 3 <;> ring_nf
    · have := strip_31 (x0 := contact * (1 / 2)) (r := r) (m := 1 / 2 - contact - 2 * r) (x3 := 1 / 2 - contact * (1 / 2)) (y0 := 1 - a) (y1 := 1 - a) (y2 := 1 / 2) (y3 := 1 / 2) (t := a)
        hr (by linarith) (by ring) ha
      simpa using this
    · have := strip_31 (x0 := contact * (1 / 2) + 1 / 2) (r := r) (m := 1 / 2 - contact - 2 * r) (x3 := 1 / 2 - contact * (1 / 2) + 1 / 2) (y0 := 1 / 2) (y1 := 1 / 2)
        (y2 := 1 - a) (y3 := 1 - a) (t := a) hr (by linarith) (by ring) ha
      convert this using 3 <;> ring_nf

example : ∃ T, createSnappy (1 / 10 : ℝ) (1 / 10) (1 / 5) (3 / 10) (7 / 20) none none none = some T := by
  simp only [createSnappy]
  rw [if_pos]
  · exact ⟨_, rfl⟩
  · norm_num

/-- Without thickness `a` the third patch has no area. -/
theorem snappy_oriented_violates : ∃ T, createSnappy (1 / 10 : ℝ) 0 (1 / 5) (3 / 10) (3 / 20) none none none = some T ∧
    ∃ P ∈ T.splines, ∀ u v : ℝ, (jacobian P 2 [u, v]).det = 0 := by
  refine ⟨⟨snappy 0 (1 / 2) 1 (1 / 10 * (1 / 2)) (1 - 1 / 10 * (1 / 2)) 0 (1 - 0) (1 / 5) (3 / 20), none⟩, ?_, _, List.mem_cons_of_mem _ (List.mem_cons_of_mem _ List.mem_cons_self), fun u v => ?_⟩
  · simp only [createSnappy]
    rw [if_pos]
    norm_num
  · rw [det_two, flat_11_0 (j := 1) (by simp), flat_11_1 (j := 1) (by simp)]
    ring

/-! ### the hypotheses are met -/

example : (∃ T, createCross3D (1 : ℝ) (1 / 5) (1 / 2) none (some [[1 / 10], [1 / 5], [3 / 10], [1 / 2], [1 / 4], [1 / 5]]) none = some T) ∧
    (∃ T, createCross3DLinear (1 : ℝ) (1 / 5) (1 / 2) none (some [[1 / 10], [1 / 5], [3 / 10], [1 / 2], [1 / 4], [1 / 5]]) none = some T) ∧
    1 * meanRadius [[1 / 10], [1 / 5], [3 / 10], [1 / 2], [1 / 4], [1 / 5]] < 1 / 2 := by
  refine ⟨?_, ?_, ?_⟩
  · simp only [createCross3D]
    rw [if_pos]
    · exact ⟨_, rfl⟩
    · simp [checkParams, withinClosed, checkDerivatives]
      norm_num
  · simp only [createCross3DLinear]
    rw [if_pos]
    · exact ⟨_, rfl⟩
    · simp [checkParams, withinClosed, checkDerivatives]
      norm_num
  · norm_num [meanRadius]

example : ∃ T, createCross3D (1 : ℝ) (2 / 5) (1 / 2) (some "z_max") (some [[1 / 10], [1 / 5], [3 / 10], [1 / 3], [1 / 4], [1 / 5]]) none = some T := by
  simp only [createCross3D, cross3DClosing, cross3DCloseBranch]
  rw [if_pos, if_pos]
  · exact ⟨_, rfl⟩
  · simp [within, checkDerivatives]
    norm_num
  · simp [checkParams, withinClosed, checkDerivatives]
    norm_num

end Splinepy.Tiles
