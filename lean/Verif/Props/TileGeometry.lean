import Mathlib.Tactic.Linarith
import Mathlib.Tactic.NormNum
import Mathlib.Tactic.FieldSimp
import Mathlib.Tactic.Positivity
import Verif.Lemma.Dedup
import Verif.Props.TileDerivatives

/-!
C76: the control points of every tile that is created lie in the unit cube, i.e. in the parametric domain of the macro patch the tile is put into.
-/

set_option linter.unusedSimpArgs false

namespace Splinepy.Tiles

open Spec

section
variable {K : Type} [Field K] [LinearOrder K] [IsStrictOrderedRing K]

theorem within_iff (low high : K) (p : Mat K) : within low high p = true ↔ ∀ r ∈ p, ∀ x ∈ r, low < x ∧ x < high := by
  simp [within]

/-- go through all entries of all control points -/
macro "entries" : tactic => `(tactic| (
  simp only [InUnitCube, shift, unshift, clampLow, clampHigh, row, List.map_cons, List.map_nil, List.zipWith_cons_cons, List.zipWith_nil_left, List.getD_cons_zero,
    List.getD_cons_succ, List.forall_mem_cons, List.forall_mem_nil, List.not_mem_nil, IsEmpty.forall_iff, implies_true, and_true]
  and_intros
  dedup_goals
  all_goals first
    | linarith
    | (simp only [le_max_iff, max_le_iff, le_min_iff, min_le_iff]; first | (and_intros <;> linarith) | (left; linarith) | (right; linarith))))

theorem max_radius {e x : K} (he : 1 / 2 < e) (h : x < min (1 / 2) (1 / 2 / e)) : x < 1 / 2 ∧ x * e < 1 / 2 := by
  have hp : (0 : K) < e := by linarith
  refine ⟨lt_of_lt_of_le h (min_le_left _ _), ?_⟩
  have := lt_of_lt_of_le h (min_le_right _ _)
  rwa [lt_div_iff₀ hp] at this

set_option maxHeartbeats 8000000 in
/-- Cross2D, ordinary and closing tiles. -/
theorem cross2D_in_unit_square (expansion bound fill : K) (closure : Option String) (p : Mat K) (s : Option (List (Mat K))) (T : Tile K)
    (h : createCross2D expansion bound fill closure (some p) s = some T) : InUnitCube T.splines := by
  simp only [createCross2D, Option.getD_some, Option.ite_none_right_eq_some, Bool.and_eq_true, decide_eq_true_eq] at h
  obtain ⟨⟨⟨⟨⟨h1, h2⟩, h3⟩, h4⟩, h5⟩, h⟩ := h
  obtain ⟨a, b, c, d, rfl⟩ := params_four h3
  rw [within_iff] at h4
  have ha := h4 [a] (by simp) a (by simp)
  have hb := h4 [b] (by simp) b (by simp)
  have hc := h4 [c] (by simp) c (by simp)
  have hd := h4 [d] (by simp) d (by simp)
  have ha' := max_radius h1 ha.2
  have hb' := max_radius h1 hb.2
  have hc' := max_radius h1 hc.2
  have hd' := max_radius h1 hd.2
  cases closure with
  | none =>
    simp only [Option.some.injEq] at h
    subst h
    have hce : cross2DCenter expansion [[a], [b], [c], [d]] = (a * expansion + b * expansion + c * expansion + d * expansion) / 4 := by
      simp [cross2DCenter, entry]; ring
    have pa := mul_pos ha.1 (show (0 : K) < expansion by linarith)
    have pb := mul_pos hb.1 (show (0 : K) < expansion by linarith)
    have pc := mul_pos hc.1 (show (0 : K) < expansion by linarith)
    have pd := mul_pos hd.1 (show (0 : K) < expansion by linarith)
    simp only [assemble, cross2DTile, hce, entry, List.getD_cons_zero, List.getD_cons_succ]
    generalize a * expansion = A at *
    generalize b * expansion = B at *
    generalize c * expansion = C at *
    generalize d * expansion = D at *
    unfold cross2D
    entries
  | some cl =>
    simp only [cross2DClosing, Option.ite_none_right_eq_some, Bool.and_eq_true, decide_eq_true_eq] at h
    obtain ⟨⟨⟨⟨_, g1, g2⟩, g3, g4⟩, _⟩, h⟩ := h
    cases ht : cross2DCloseTile cl bound fill [[a], [b], [c], [d]] with
    | none => simp [ht] at h
    | some t =>
      simp only [ht, Option.some.injEq] at h
      subst h
      change InUnitCube t
      simp only [cross2DCloseTile, cross2DCloseBranch, entry, List.getD_cons_zero, List.getD_cons_succ] at ht
      split_ifs at ht <;> rw [Option.some.injEq] at ht <;> subst ht
      · unfold cross2DCloseXMin; entries
      · unfold cross2DCloseXMax; entries
      · unfold cross2DCloseYMin; entries
      · unfold cross2DCloseYMax; entries

example : (createCross2D (1 : ℚ) (1 / 10) (1 / 2) none (some [[1 / 5], [1 / 10], [1 / 4], [2 / 5]]) (some [[[1], [0], [0], [0]]])).isSome = true := by decide +kernel
example : (createCross2D (1 : ℚ) (1 / 10) (1 / 2) (some "y_max") (some [[1 / 5], [1 / 10], [1 / 4], [2 / 5]]) none).isSome = true := by decide +kernel

set_option maxHeartbeats 8000000 in
/-- DoubleLattice. -/
theorem double_lattice_in_unit_square (sqrt2 contact : K) (hs : 0 < sqrt2) (closure : Option String) (p : Mat K) (s : Option (List (Mat K))) (T : Tile K)
    (h : createDoubleLattice sqrt2 contact closure (some p) s = some T) : InUnitCube T.splines := by
  simp only [createDoubleLattice, Option.getD_some, Option.ite_none_right_eq_some, Bool.and_eq_true, decide_eq_true_eq, Option.some.injEq] at h
  obtain ⟨⟨⟨⟨⟨h1, h2⟩, h4⟩, h3⟩, h5⟩, rfl⟩ := h
  obtain ⟨a, b, rfl⟩ := params_one_two h3
  rw [within_iff] at h4
  have ha := h4 [a, b] (by simp) a (by simp)
  have hb := h4 [a, b] (by simp) b (by simp)
  clear h3 h4 h5
  have hab : a + b * sqrt2 < 1 / 2 := by
    have hq : (0 : K) < 1 + sqrt2 := by linarith
    have h1 := ha.2
    have h2 := hb.2
    have e : 1 / 2 / (1 + sqrt2) + 1 / 2 / (1 + sqrt2) * sqrt2 = 1 / 2 := by field_simp
    have := mul_lt_mul_of_pos_right h2 hs
    linarith
  have pb := mul_pos hb.1 hs
  simp only [assemble, doubleLatticeTile, entry, List.getD_cons_zero, List.getD_cons_succ]
  generalize b * sqrt2 = B at *
  obtain ⟨ha, -⟩ := ha
  clear hb
  unfold doubleLattice
  entries

example : (createDoubleLattice (7 / 5 : ℚ) (1 / 2) none (some [[1 / 5, 1 / 10]]) (some [[[1, 2]]])).isSome = true := by decide +kernel

set_option maxHeartbeats 8000000 in
/-- HollowOctagon, ordinary and closing tiles. -/
theorem hollow_octagon_in_unit_square (contact : K) (closure : Option String) (p : Mat K) (s : Option (List (Mat K))) (T : Tile K)
    (h : createHollowOctagon contact closure (some p) s = some T) : InUnitCube T.splines := by
  simp only [createHollowOctagon, Option.getD_some, Option.ite_none_right_eq_some, Bool.and_eq_true, decide_eq_true_eq] at h
  obtain ⟨⟨⟨⟨⟨h1, h2⟩, h3⟩, h4⟩, h5⟩, h⟩ := h
  obtain ⟨a, rfl⟩ := params_one h4
  rw [within_iff] at h5
  have ha := h5 [a] (by simp) a (by simp)
  clear h3 h4 h5
  have pa := mul_pos h1 ha.1
  have pa' : contact * a < a := by nlinarith [ha.1]
  cases closure with
  | none =>
    simp only [Option.some.injEq] at h
    subst h
    simp only [hollowOctagonTile, entry, List.getD_cons_zero]
    generalize contact * a = A at *
    unfold hollowOctagon
    entries
  | some cl =>
    simp only [hollowOctagonClosing, Option.map_eq_some_iff, Option.ite_none_right_eq_some] at h
    obtain ⟨t, ⟨-, ht⟩, rfl⟩ := h
    change InUnitCube t
    simp only [entry, List.getD_cons_zero] at ht
    generalize contact * a = A at *
    split_ifs at ht <;> rw [Option.some.injEq] at ht <;> subst ht
    · unfold hollowOctagonCloseXMin; entries
    · unfold hollowOctagonCloseXMax; entries
    · unfold hollowOctagonCloseYMin; entries
    · unfold hollowOctagonCloseYMax; entries

example : (createHollowOctagon (1 / 2 : ℚ) none (some [[1 / 5]]) none).isSome = true ∧ (createHollowOctagon (1 / 2 : ℚ) (some "x_max") (some [[1 / 5]]) none).isSome = true := by
  decide +kernel

set_option maxHeartbeats 8000000 in
/-- Snappy, for `b` up to one half. -/
theorem snappy_in_unit_square_partial (contact a b c r : K) (hb : b ≤ 1 / 2) (closure : Option String) (p : Option (Mat K)) (s : Option (List (Mat K))) (T : Tile K)
    (h : createSnappy contact a b c r closure p s = some T) : InUnitCube T.splines := by
  simp only [createSnappy, Option.ite_none_right_eq_some, Bool.and_eq_true, decide_eq_true_eq, Bool.not_eq_true', decide_eq_false_iff_not, not_lt] at h
  obtain ⟨⟨⟨⟨⟨⟨⟨⟨⟨⟨h1, h2⟩, h3⟩, h4⟩, h5⟩, h6, h7⟩, h8⟩, h9, h10⟩, -⟩, -⟩, h⟩ := h
  cases closure with
  | none =>
    simp only [Option.some.injEq] at h
    subst h
    unfold snappy
    entries
  | some cl => simp [snappyClosing] at h

/-- `b` may be larger than one half: then control points leave the unit square. -/
theorem snappy_in_unit_square_violates : ∃ T, createSnappy (1 / 10 : ℚ) 0 (3 / 4) (1 / 10) (1 / 10) none none none = some T ∧ ¬ InUnitCube T.splines := by
  refine ⟨⟨snappy 0 (1 / 2) 1 (1 / 10 * (1 / 2)) (1 - 1 / 10 * (1 / 2)) 0 (1 - 0) (3 / 4) (1 / 10), none⟩, ?_, ?_⟩
  · rw [createSnappy, if_pos]
    norm_num
  intro h
  have := h ⟨[1, 1], [[1 / 2 - 1 / 10 * (1 / 2), 1 / 2 - 3 / 4], [1 / 2 + 1 / 10 * (1 / 2), 1 / 2 - 3 / 4], [1 / 2 - 1 / 10 * (1 / 2), 1 / 2], [1 / 2 + 1 / 10 * (1 / 2), 1 / 2]]⟩
    (by simp [snappy]) [1 / 2 - 1 / 10 * (1 / 2), 1 / 2 - 3 / 4] (by simp) (1 / 2 - 3 / 4) (by simp)
  norm_num at this

example : (createSnappy (1 / 10 : ℚ) (1 / 10) (1 / 5) (3 / 10) (1 / 10) none none none).isSome = true := by decide +kernel

end

end Splinepy.Tiles
