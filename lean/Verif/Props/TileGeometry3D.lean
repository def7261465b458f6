import Verif.Props.TileGeometry

/-!
C76, three dimensional tiles.
-/

set_option linter.unusedSimpArgs false

namespace Splinepy.Tiles

open Spec

section
variable {K : Type} [Field K] [LinearOrder K] [IsStrictOrderedRing K]

theorem withinClosed_iff (high : K) (p : Mat K) : withinClosed high p = true ↔ ∀ r ∈ p, ∀ x ∈ r, 0 < x ∧ x ≤ high := by
  simp [withinClosed]

theorem max_radius' {e x : K} (he : 1 / 2 < e) (h : x ≤ min (1 / 2) (1 / 2 / e)) : x ≤ 1 / 2 ∧ e * x ≤ 1 / 2 := by
  have hp : (0 : K) < e := by linarith
  refine ⟨h.trans (min_le_left _ _), ?_⟩
  have := h.trans (min_le_right _ _)
  rw [le_div_iff₀ hp] at this
  linarith

set_option maxHeartbeats 8000000 in
/-- HollowCube. -/
theorem hollow_cube_in_unit_cube (closure : Option String) (p : Mat K) (s : Option (List (Mat K))) (T : Tile K)
    (h : createHollowCube closure (some p) s = some T) : InUnitCube T.splines := by
  simp only [createHollowCube, Option.getD_some, Option.ite_none_right_eq_some, Bool.and_eq_true, Option.some.injEq] at h
  obtain ⟨⟨⟨h3, h4⟩, -⟩, rfl⟩ := h
  obtain ⟨a, b, c, d, e, f, g, rfl⟩ := params_seven h3
  rw [within_iff] at h4
  have ha := h4 [a] (by simp) a (by simp)
  have hb := h4 [b] (by simp) b (by simp)
  have hc := h4 [c] (by simp) c (by simp)
  have hd := h4 [d] (by simp) d (by simp)
  have he := h4 [e] (by simp) e (by simp)
  have hf := h4 [f] (by simp) f (by simp)
  have hg := h4 [g] (by simp) g (by simp)
  clear h3 h4
  simp only [assemble, hollowCubeTile, entry, List.getD_cons_zero, List.getD_cons_succ]
  unfold hollowCube
  entries

example : (createHollowCube none (some [[(1 / 5 : ℚ)], [1 / 10], [1 / 4], [2 / 5], [1 / 3], [1 / 6], [1 / 7]]) none).isSome = true := by decide +kernel

theorem cross3D_center {x a b c d e f : K} (hx : 1 / 2 < x)
    (h4 : ∀ r ∈ ([[a], [b], [c], [d], [e], [f]] : Mat K), ∀ y ∈ r, 0 < y ∧ y ≤ min (1 / 2) (1 / 2 / x)) :
    (0 < a ∧ a ≤ 1 / 2) ∧ (0 < b ∧ b ≤ 1 / 2) ∧ (0 < c ∧ c ≤ 1 / 2) ∧ (0 < d ∧ d ≤ 1 / 2) ∧ (0 < e ∧ e ≤ 1 / 2) ∧ (0 < f ∧ f ≤ 1 / 2) ∧
      0 < cross3DCenter x [[a], [b], [c], [d], [e], [f]] ∧ cross3DCenter x [[a], [b], [c], [d], [e], [f]] ≤ 1 / 2 := by
  have ha := h4 [a] (by simp) a (by simp)
  have hb := h4 [b] (by simp) b (by simp)
  have hc := h4 [c] (by simp) c (by simp)
  have hd := h4 [d] (by simp) d (by simp)
  have he := h4 [e] (by simp) e (by simp)
  have hf := h4 [f] (by simp) f (by simp)
  have ha' := max_radius' hx ha.2
  have hb' := max_radius' hx hb.2
  have hc' := max_radius' hx hc.2
  have hd' := max_radius' hx hd.2
  have he' := max_radius' hx he.2
  have hf' := max_radius' hx hf.2
  have hp : (0 : K) < x := by linarith
  have hce : cross3DCenter x [[a], [b], [c], [d], [e], [f]] = (x * a + x * b + x * c + x * d + x * e + x * f) / 6 := by
    simp [cross3DCenter, entry]; ring
  rw [hce]
  have pa := mul_pos hp ha.1
  have pb := mul_pos hp hb.1
  have pc := mul_pos hp hc.1
  have pd := mul_pos hp hd.1
  have pe := mul_pos hp he.1
  have pf := mul_pos hp hf.1
  refine ⟨⟨ha.1, ha'.1⟩, ⟨hb.1, hb'.1⟩, ⟨hc.1, hc'.1⟩, ⟨hd.1, hd'.1⟩, ⟨he.1, he'.1⟩, ⟨hf.1, hf'.1⟩, ?_, ?_⟩
  · positivity
  · linarith [ha'.2, hb'.2, hc'.2, hd'.2, he'.2, hf'.2]

theorem closing_in_unit_cube {closure : String} {lower upper : K → List (Patch K)} {p : Mat K} {t : List (Patch K)}
    (h : cross3DCloseBranch closure lower upper p = some t) (hl : InUnitCube (lower (entry p 5 0))) (hu : InUnitCube (upper (entry p 4 0))) : InUnitCube t := by
  simp only [cross3DCloseBranch] at h
  split_ifs at h <;> rw [Option.some.injEq] at h <;> subst h <;> assumption

set_option maxHeartbeats 16000000 in
/-- Cross3D, ordinary and closing tiles. -/
theorem cross3D_in_unit_cube (expansion bound fill : K) (closure : Option String) (p : Mat K) (s : Option (List (Mat K))) (T : Tile K)
    (h : createCross3D expansion bound fill closure (some p) s = some T) : InUnitCube T.splines := by
  simp only [createCross3D, Option.getD_some, Option.ite_none_right_eq_some, Bool.and_eq_true, decide_eq_true_eq] at h
  obtain ⟨⟨⟨⟨⟨h1, h2⟩, h3⟩, h4⟩, h5⟩, h⟩ := h
  obtain ⟨a, b, c, d, e, f, rfl⟩ := params_six h3
  rw [withinClosed_iff] at h4
  obtain ⟨ha, hb, hc, hd, he, hf, hce⟩ := cross3D_center h1 h4
  clear h3 h4 h5
  cases closure with
  | none =>
    simp only [Option.some.injEq] at h
    subst h
    simp only [assemble, cross3DTile, entry, List.getD_cons_zero, List.getD_cons_succ]
    generalize cross3DCenter expansion [[a], [b], [c], [d], [e], [f]] = C at *
    clear h1 h2
    unfold cross3D
    entries
  | some cl =>
    simp only [cross3DClosing, Option.ite_none_right_eq_some, Bool.and_eq_true, decide_eq_true_eq] at h
    obtain ⟨⟨⟨_, g1, g2⟩, g3, g4⟩, h⟩ := h
    cases ht : cross3DCloseBranch cl (closeValues cross3DCloseZMin bound fill) (closeValues cross3DCloseZMax bound fill) [[a], [b], [c], [d], [e], [f]] with
    | none => simp [ht] at h
    | some t =>
      simp only [ht, Option.some.injEq] at h
      subst h
      refine closing_in_unit_cube ht ?_ ?_
      · clear h1 h2 ha hb hc hd he hce
        simp only [entry, List.getD_cons_zero, List.getD_cons_succ]
        unfold closeValues cross3DCloseZMin
        entries
      · clear h1 h2 ha hb hc hd hf hce
        simp only [entry, List.getD_cons_zero, List.getD_cons_succ]
        unfold closeValues cross3DCloseZMax
        entries

set_option maxHeartbeats 16000000 in
/-- Cross3DLinear, ordinary and closing tiles. -/
theorem cross3D_linear_in_unit_cube (expansion bound fill : K) (closure : Option String) (p : Mat K) (s : Option (List (Mat K))) (T : Tile K)
    (h : createCross3DLinear expansion bound fill closure (some p) s = some T) : InUnitCube T.splines := by
  simp only [createCross3DLinear, Option.getD_some, Option.ite_none_right_eq_some, Bool.and_eq_true, decide_eq_true_eq] at h
  obtain ⟨⟨⟨⟨⟨h1, h2⟩, h3⟩, h4⟩, h5⟩, h⟩ := h
  obtain ⟨a, b, c, d, e, f, rfl⟩ := params_six h3
  rw [withinClosed_iff] at h4
  obtain ⟨ha, hb, hc, hd, he, hf, hce⟩ := cross3D_center h1 h4
  clear h3 h4 h5
  cases closure with
  | none =>
    simp only [Option.some.injEq] at h
    subst h
    simp only [assemble, cross3DLinearTile, entry, List.getD_cons_zero, List.getD_cons_succ]
    generalize cross3DCenter expansion [[a], [b], [c], [d], [e], [f]] = C at *
    clear h1 h2
    unfold cross3DLinear
    entries
  | some cl =>
    simp only [cross3DLinearClosing, Option.ite_none_right_eq_some, Bool.and_eq_true, decide_eq_true_eq] at h
    obtain ⟨⟨⟨_, g1, g2⟩, g3, g4⟩, h⟩ := h
    cases ht : cross3DCloseBranch cl (closeValues cross3DLinearCloseZMin bound fill) (closeValues cross3DLinearCloseZMax bound fill) [[a], [b], [c], [d], [e], [f]] with
    | none => simp [ht] at h
    | some t =>
      simp only [ht, Option.some.injEq] at h
      subst h
      refine closing_in_unit_cube ht ?_ ?_
      · clear h1 h2 ha hb hc hd he hce
        simp only [entry, List.getD_cons_zero, List.getD_cons_succ]
        unfold closeValues cross3DLinearCloseZMin
        entries
      · clear h1 h2 ha hb hc hd hf hce
        simp only [entry, List.getD_cons_zero, List.getD_cons_succ]
        unfold closeValues cross3DLinearCloseZMax
        entries

example : (createCross3D (1 : ℚ) (1 / 10) (1 / 2) none (some [[1 / 5], [1 / 10], [1 / 4], [2 / 5], [1 / 3], [1 / 6]]) none).isSome = true ∧
    (createCross3D (1 : ℚ) (1 / 10) (1 / 2) (some "z_max") (some [[1 / 5], [1 / 10], [1 / 4], [2 / 5], [1 / 3], [1 / 6]]) none).isSome = true := by decide +kernel

example : (createCross3DLinear (1 : ℚ) (1 / 10) (1 / 2) none (some [[1 / 5], [1 / 10], [1 / 4], [2 / 5], [1 / 3], [1 / 6]]) none).isSome = true ∧
    (createCross3DLinear (1 : ℚ) (1 / 10) (1 / 2) (some "z_min") (some [[1 / 5], [1 / 10], [1 / 4], [2 / 5], [1 / 3], [1 / 6]]) none).isSome = true := by decide +kernel

end

end Splinepy.Tiles
