import Verif.Props.TileCloses
import Mathlib.Analysis.Calculus.Deriv.Mul
import Mathlib.Analysis.Calculus.Deriv.Pow
import Mathlib.Analysis.Calculus.Deriv.Add
import Mathlib.Tactic.Linarith

/-!
Partial derivatives of the Bezier patches of the tiles: convex combinations of the edges of the control net.
-/

namespace Splinepy.Tiles

open Spec Splinepy.Spec

theorem mix_pos {x a b : ℝ} (h : 0 ≤ x ∧ x ≤ 1) (ha : 0 < a) (hb : 0 < b) : 0 < (1 - x) * a + x * b := by
  rcases lt_or_ge 0 x with hx | hx
  · exact add_pos_of_nonneg_of_pos (mul_nonneg (by linarith [h.2]) ha.le) (mul_pos hx hb)
  · have : x = 0 := le_antisymm hx h.1
    subst this
    simpa using ha

theorem deriv_cubic (f : ℝ → ℝ) (a b c d : ℝ) (h : ∀ x, f x = a + b * x + c * x ^ 2 + d * x ^ 3) (x : ℝ) : deriv f x = b + 2 * c * x + 3 * d * x ^ 2 := by
  have e : f = fun x => a + b * x + c * x ^ 2 + d * x ^ 3 := funext h
  rw [e]
  apply HasDerivAt.deriv
  have := (((hasDerivAt_id x).const_mul b).const_add a).add (((hasDerivAt_pow 2 x).const_mul c)) |>.add ((hasDerivAt_pow 3 x).const_mul d)
  refine (this.congr_deriv ?_)
  norm_num
  ring

theorem deriv_bern1 (f : ℝ → ℝ) (a b : ℝ) (h : ∀ x, f x = (1 - x) * a + x * b) (x : ℝ) : deriv f x = b - a := by
  rw [deriv_cubic f a (b - a) 0 0 (fun x => by rw [h]; ring)]
  ring

theorem deriv_bern2 (f : ℝ → ℝ) (a b c : ℝ) (h : ∀ x, f x = (1 - x) * ((1 - x) * a + x * b) + x * ((1 - x) * b + x * c)) (x : ℝ) :
    deriv f x = 2 * ((1 - x) * (b - a) + x * (c - b)) := by
  rw [deriv_cubic f a (2 * (b - a)) (a - 2 * b + c) 0 (fun x => by rw [h]; ring)]
  ring

theorem deriv_bern3 (f : ℝ → ℝ) (a b c d : ℝ) (h : ∀ x, f x = (1 - x) * ((1 - x) * ((1 - x) * a + x * b) + x * ((1 - x) * b + x * c)) +
    x * ((1 - x) * ((1 - x) * b + x * c) + x * ((1 - x) * c + x * d))) (x : ℝ) :
    deriv f x = 3 * ((1 - x) * ((1 - x) * (b - a) + x * (c - b)) + x * ((1 - x) * (c - b) + x * (d - c))) := by
  rw [deriv_cubic f a (3 * (b - a)) (3 * (a - 2 * b + c)) (d - 3 * c + 3 * b - a) (fun x => by rw [h]; ring)]
  ring

theorem point_11' (p0 p1 p2 p3 : List ℝ) (u v : ℝ) (j : ℕ) : point (bezier ⟨[1, 1], [p0, p1, p2, p3]⟩) [u, v] j =
    ((1 - v) * ((1 - u) * p0.getD j 0 + u * p1.getD j 0) + v * ((1 - u) * p2.getD j 0 + u * p3.getD j 0)) := by
  simp [point, value, bezier, netSize, directions, Direction.size, basisValues, Direction.basis, tensorEval, basisProduct, digits, bernstein, List.range_succ, Nat.choose]
  ring

theorem deriv_11_0 (p0 p1 p2 p3 : List ℝ) (u v : ℝ) (j : ℕ) : deriv (fun x => point (bezier ⟨[1, 1], [p0, p1, p2, p3]⟩) [x, v] j) u =
    1 * ((1 - v) * (p1.getD j 0 - p0.getD j 0) + v * (p3.getD j 0 - p2.getD j 0)) := by
  simp only [point_11']
  rw [deriv_bern1 _ (((1 - v) * p0.getD j 0 + v * p2.getD j 0)) (((1 - v) * p1.getD j 0 + v * p3.getD j 0)) (fun x => by ring)]
  ring

theorem pos_11_0 {p0 p1 p2 p3 : List ℝ} {j : ℕ}
    (h : 0 < p1.getD j 0 - p0.getD j 0 ∧ 0 < p3.getD j 0 - p2.getD j 0) {u v : ℝ} (hu : 0 ≤ u ∧ u ≤ 1) (hv : 0 ≤ v ∧ v ≤ 1) :
    0 < deriv (fun x => point (bezier ⟨[1, 1], [p0, p1, p2, p3]⟩) [x, v] j) u := by
  rw [deriv_11_0]
  obtain ⟨e0, e1⟩ := h
  repeat' first | assumption | apply mix_pos | (apply mul_pos (by norm_num))

theorem flat_11_0 {p0 p1 p2 p3 : List ℝ} {j : ℕ}
    (h : p1.getD j 0 - p0.getD j 0 = 0 ∧ p3.getD j 0 - p2.getD j 0 = 0) {u v : ℝ} :
    deriv (fun x => point (bezier ⟨[1, 1], [p0, p1, p2, p3]⟩) [x, v] j) u = 0 := by
  rw [deriv_11_0]
  obtain ⟨e0, e1⟩ := h
  simp only [e0, e1, mul_zero, add_zero]

theorem deriv_11_1 (p0 p1 p2 p3 : List ℝ) (u v : ℝ) (j : ℕ) : deriv (fun x => point (bezier ⟨[1, 1], [p0, p1, p2, p3]⟩) [u, x] j) v =
    1 * ((1 - u) * (p2.getD j 0 - p0.getD j 0) + u * (p3.getD j 0 - p1.getD j 0)) := by
  simp only [point_11']
  rw [deriv_bern1 _ (((1 - u) * p0.getD j 0 + u * p1.getD j 0)) (((1 - u) * p2.getD j 0 + u * p3.getD j 0)) (fun x => by ring)]
  ring

theorem pos_11_1 {p0 p1 p2 p3 : List ℝ} {j : ℕ}
    (h : 0 < p2.getD j 0 - p0.getD j 0 ∧ 0 < p3.getD j 0 - p1.getD j 0) {u v : ℝ} (hu : 0 ≤ u ∧ u ≤ 1) (hv : 0 ≤ v ∧ v ≤ 1) :
    0 < deriv (fun x => point (bezier ⟨[1, 1], [p0, p1, p2, p3]⟩) [u, x] j) v := by
  rw [deriv_11_1]
  obtain ⟨e0, e1⟩ := h
  repeat' first | assumption | apply mix_pos | (apply mul_pos (by norm_num))

theorem flat_11_1 {p0 p1 p2 p3 : List ℝ} {j : ℕ}
    (h : p2.getD j 0 - p0.getD j 0 = 0 ∧ p3.getD j 0 - p1.getD j 0 = 0) {u v : ℝ} :
    deriv (fun x => point (bezier ⟨[1, 1], [p0, p1, p2, p3]⟩) [u, x] j) v = 0 := by
  rw [deriv_11_1]
  obtain ⟨e0, e1⟩ := h
  simp only [e0, e1, mul_zero, add_zero]

theorem point_21' (p0 p1 p2 p3 p4 p5 : List ℝ) (u v : ℝ) (j : ℕ) : point (bezier ⟨[2, 1], [p0, p1, p2, p3, p4, p5]⟩) [u, v] j =
    ((1 - v) * ((1 - u) * ((1 - u) * p0.getD j 0 + u * p1.getD j 0) + u * ((1 - u) * p1.getD j 0 + u * p2.getD j 0)) + v * ((1 - u) * ((1 - u) * p3.getD j 0 + u * p4.getD j 0) + u * ((1 - u) * p4.getD j 0 + u * p5.getD j 0))) := by
  simp [point, value, bezier, netSize, directions, Direction.size, basisValues, Direction.basis, tensorEval, basisProduct, digits, bernstein, List.range_succ, Nat.choose]
  ring

theorem deriv_21_0 (p0 p1 p2 p3 p4 p5 : List ℝ) (u v : ℝ) (j : ℕ) : deriv (fun x => point (bezier ⟨[2, 1], [p0, p1, p2, p3, p4, p5]⟩) [x, v] j) u =
    2 * ((1 - v) * ((1 - u) * (p1.getD j 0 - p0.getD j 0) + u * (p2.getD j 0 - p1.getD j 0)) + v * ((1 - u) * (p4.getD j 0 - p3.getD j 0) + u * (p5.getD j 0 - p4.getD j 0))) := by
  simp only [point_21']
  rw [deriv_bern2 _ (((1 - v) * p0.getD j 0 + v * p3.getD j 0)) (((1 - v) * p1.getD j 0 + v * p4.getD j 0)) (((1 - v) * p2.getD j 0 + v * p5.getD j 0)) (fun x => by ring)]
  ring

theorem pos_21_0 {p0 p1 p2 p3 p4 p5 : List ℝ} {j : ℕ}
    (h : 0 < p1.getD j 0 - p0.getD j 0 ∧ 0 < p2.getD j 0 - p1.getD j 0 ∧ 0 < p4.getD j 0 - p3.getD j 0 ∧ 0 < p5.getD j 0 - p4.getD j 0) {u v : ℝ} (hu : 0 ≤ u ∧ u ≤ 1) (hv : 0 ≤ v ∧ v ≤ 1) :
    0 < deriv (fun x => point (bezier ⟨[2, 1], [p0, p1, p2, p3, p4, p5]⟩) [x, v] j) u := by
  rw [deriv_21_0]
  obtain ⟨e0, e1, e2, e3⟩ := h
  repeat' first | assumption | apply mix_pos | (apply mul_pos (by norm_num))

theorem flat_21_0 {p0 p1 p2 p3 p4 p5 : List ℝ} {j : ℕ}
    (h : p1.getD j 0 - p0.getD j 0 = 0 ∧ p2.getD j 0 - p1.getD j 0 = 0 ∧ p4.getD j 0 - p3.getD j 0 = 0 ∧ p5.getD j 0 - p4.getD j 0 = 0) {u v : ℝ} :
    deriv (fun x => point (bezier ⟨[2, 1], [p0, p1, p2, p3, p4, p5]⟩) [x, v] j) u = 0 := by
  rw [deriv_21_0]
  obtain ⟨e0, e1, e2, e3⟩ := h
  simp only [e0, e1, e2, e3, mul_zero, add_zero]

theorem deriv_21_1 (p0 p1 p2 p3 p4 p5 : List ℝ) (u v : ℝ) (j : ℕ) : deriv (fun x => point (bezier ⟨[2, 1], [p0, p1, p2, p3, p4, p5]⟩) [u, x] j) v =
    1 * ((1 - u) * ((1 - u) * (p3.getD j 0 - p0.getD j 0) + u * (p4.getD j 0 - p1.getD j 0)) + u * ((1 - u) * (p4.getD j 0 - p1.getD j 0) + u * (p5.getD j 0 - p2.getD j 0))) := by
  simp only [point_21']
  rw [deriv_bern1 _ (((1 - u) * ((1 - u) * p0.getD j 0 + u * p1.getD j 0) + u * ((1 - u) * p1.getD j 0 + u * p2.getD j 0))) (((1 - u) * ((1 - u) * p3.getD j 0 + u * p4.getD j 0) + u * ((1 - u) * p4.getD j 0 + u * p5.getD j 0))) (fun x => by ring)]
  ring

theorem pos_21_1 {p0 p1 p2 p3 p4 p5 : List ℝ} {j : ℕ}
    (h : 0 < p3.getD j 0 - p0.getD j 0 ∧ 0 < p4.getD j 0 - p1.getD j 0 ∧ 0 < p5.getD j 0 - p2.getD j 0) {u v : ℝ} (hu : 0 ≤ u ∧ u ≤ 1) (hv : 0 ≤ v ∧ v ≤ 1) :
    0 < deriv (fun x => point (bezier ⟨[2, 1], [p0, p1, p2, p3, p4, p5]⟩) [u, x] j) v := by
  rw [deriv_21_1]
  obtain ⟨e0, e1, e2⟩ := h
  repeat' first | assumption | apply mix_pos | (apply mul_pos (by norm_num))

theorem flat_21_1 {p0 p1 p2 p3 p4 p5 : List ℝ} {j : ℕ}
    (h : p3.getD j 0 - p0.getD j 0 = 0 ∧ p4.getD j 0 - p1.getD j 0 = 0 ∧ p5.getD j 0 - p2.getD j 0 = 0) {u v : ℝ} :
    deriv (fun x => point (bezier ⟨[2, 1], [p0, p1, p2, p3, p4, p5]⟩) [u, x] j) v = 0 := by
  rw [deriv_21_1]
  obtain ⟨e0, e1, e2⟩ := h
  simp only [e0, e1, e2, mul_zero, add_zero]

theorem point_12' (p0 p1 p2 p3 p4 p5 : List ℝ) (u v : ℝ) (j : ℕ) : point (bezier ⟨[1, 2], [p0, p1, p2, p3, p4, p5]⟩) [u, v] j =
    ((1 - v) * ((1 - v) * ((1 - u) * p0.getD j 0 + u * p1.getD j 0) + v * ((1 - u) * p2.getD j 0 + u * p3.getD j 0)) + v * ((1 - v) * ((1 - u) * p2.getD j 0 + u * p3.getD j 0) + v * ((1 - u) * p4.getD j 0 + u * p5.getD j 0))) := by
  simp [point, value, bezier, netSize, directions, Direction.size, basisValues, Direction.basis, tensorEval, basisProduct, digits, bernstein, List.range_succ, Nat.choose]
  ring

theorem deriv_12_0 (p0 p1 p2 p3 p4 p5 : List ℝ) (u v : ℝ) (j : ℕ) : deriv (fun x => point (bezier ⟨[1, 2], [p0, p1, p2, p3, p4, p5]⟩) [x, v] j) u =
    1 * ((1 - v) * ((1 - v) * (p1.getD j 0 - p0.getD j 0) + v * (p3.getD j 0 - p2.getD j 0)) + v * ((1 - v) * (p3.getD j 0 - p2.getD j 0) + v * (p5.getD j 0 - p4.getD j 0))) := by
  simp only [point_12']
  rw [deriv_bern1 _ (((1 - v) * ((1 - v) * p0.getD j 0 + v * p2.getD j 0) + v * ((1 - v) * p2.getD j 0 + v * p4.getD j 0))) (((1 - v) * ((1 - v) * p1.getD j 0 + v * p3.getD j 0) + v * ((1 - v) * p3.getD j 0 + v * p5.getD j 0))) (fun x => by ring)]
  ring

theorem pos_12_0 {p0 p1 p2 p3 p4 p5 : List ℝ} {j : ℕ}
    (h : 0 < p1.getD j 0 - p0.getD j 0 ∧ 0 < p3.getD j 0 - p2.getD j 0 ∧ 0 < p5.getD j 0 - p4.getD j 0) {u v : ℝ} (hu : 0 ≤ u ∧ u ≤ 1) (hv : 0 ≤ v ∧ v ≤ 1) :
    0 < deriv (fun x => point (bezier ⟨[1, 2], [p0, p1, p2, p3, p4, p5]⟩) [x, v] j) u := by
  rw [deriv_12_0]
  obtain ⟨e0, e1, e2⟩ := h
  repeat' first | assumption | apply mix_pos | (apply mul_pos (by norm_num))

theorem flat_12_0 {p0 p1 p2 p3 p4 p5 : List ℝ} {j : ℕ}
    (h : p1.getD j 0 - p0.getD j 0 = 0 ∧ p3.getD j 0 - p2.getD j 0 = 0 ∧ p5.getD j 0 - p4.getD j 0 = 0) {u v : ℝ} :
    deriv (fun x => point (bezier ⟨[1, 2], [p0, p1, p2, p3, p4, p5]⟩) [x, v] j) u = 0 := by
  rw [deriv_12_0]
  obtain ⟨e0, e1, e2⟩ := h
  simp only [e0, e1, e2, mul_zero, add_zero]

theorem deriv_12_1 (p0 p1 p2 p3 p4 p5 : List ℝ) (u v : ℝ) (j : ℕ) : deriv (fun x => point (bezier ⟨[1, 2], [p0, p1, p2, p3, p4, p5]⟩) [u, x] j) v =
    2 * ((1 - v) * ((1 - u) * (p2.getD j 0 - p0.getD j 0) + u * (p3.getD j 0 - p1.getD j 0)) + v * ((1 - u) * (p4.getD j 0 - p2.getD j 0) + u * (p5.getD j 0 - p3.getD j 0))) := by
  simp only [point_12']
  rw [deriv_bern2 _ (((1 - u) * p0.getD j 0 + u * p1.getD j 0)) (((1 - u) * p2.getD j 0 + u * p3.getD j 0)) (((1 - u) * p4.getD j 0 + u * p5.getD j 0)) (fun x => by ring)]
  ring

theorem pos_12_1 {p0 p1 p2 p3 p4 p5 : List ℝ} {j : ℕ}
    (h : 0 < p2.getD j 0 - p0.getD j 0 ∧ 0 < p3.getD j 0 - p1.getD j 0 ∧ 0 < p4.getD j 0 - p2.getD j 0 ∧ 0 < p5.getD j 0 - p3.getD j 0) {u v : ℝ} (hu : 0 ≤ u ∧ u ≤ 1) (hv : 0 ≤ v ∧ v ≤ 1) :
    0 < deriv (fun x => point (bezier ⟨[1, 2], [p0, p1, p2, p3, p4, p5]⟩) [u, x] j) v := by
  rw [deriv_12_1]
  obtain ⟨e0, e1, e2, e3⟩ := h
  repeat' first | assumption | apply mix_pos | (apply mul_pos (by norm_num))

theorem flat_12_1 {p0 p1 p2 p3 p4 p5 : List ℝ} {j : ℕ}
    (h : p2.getD j 0 - p0.getD j 0 = 0 ∧ p3.getD j 0 - p1.getD j 0 = 0 ∧ p4.getD j 0 - p2.getD j 0 = 0 ∧ p5.getD j 0 - p3.getD j 0 = 0) {u v : ℝ} :
    deriv (fun x => point (bezier ⟨[1, 2], [p0, p1, p2, p3, p4, p5]⟩) [u, x] j) v = 0 := by
  rw [deriv_12_1]
  obtain ⟨e0, e1, e2, e3⟩ := h
  simp only [e0, e1, e2, e3, mul_zero, add_zero]

theorem point_31' (p0 p1 p2 p3 p4 p5 p6 p7 : List ℝ) (u v : ℝ) (j : ℕ) : point (bezier ⟨[3, 1], [p0, p1, p2, p3, p4, p5, p6, p7]⟩) [u, v] j =
    ((1 - v) * ((1 - u) * ((1 - u) * ((1 - u) * p0.getD j 0 + u * p1.getD j 0) + u * ((1 - u) * p1.getD j 0 + u * p2.getD j 0)) + u * ((1 - u) * ((1 - u) * p1.getD j 0 + u * p2.getD j 0) + u * ((1 - u) * p2.getD j 0 + u * p3.getD j 0))) + v * ((1 - u) * ((1 - u) * ((1 - u) * p4.getD j 0 + u * p5.getD j 0) + u * ((1 - u) * p5.getD j 0 + u * p6.getD j 0)) + u * ((1 - u) * ((1 - u) * p5.getD j 0 + u * p6.getD j 0) + u * ((1 - u) * p6.getD j 0 + u * p7.getD j 0)))) := by
  simp [point, value, bezier, netSize, directions, Direction.size, basisValues, Direction.basis, tensorEval, basisProduct, digits, bernstein, List.range_succ, Nat.choose]
  ring

theorem deriv_31_0 (p0 p1 p2 p3 p4 p5 p6 p7 : List ℝ) (u v : ℝ) (j : ℕ) : deriv (fun x => point (bezier ⟨[3, 1], [p0, p1, p2, p3, p4, p5, p6, p7]⟩) [x, v] j) u =
    3 * ((1 - v) * ((1 - u) * ((1 - u) * (p1.getD j 0 - p0.getD j 0) + u * (p2.getD j 0 - p1.getD j 0)) + u * ((1 - u) * (p2.getD j 0 - p1.getD j 0) + u * (p3.getD j 0 - p2.getD j 0))) + v * ((1 - u) * ((1 - u) * (p5.getD j 0 - p4.getD j 0) + u * (p6.getD j 0 - p5.getD j 0)) + u * ((1 - u) * (p6.getD j 0 - p5.getD j 0) + u * (p7.getD j 0 - p6.getD j 0)))) := by
  simp only [point_31']
  rw [deriv_bern3 _ (((1 - v) * p0.getD j 0 + v * p4.getD j 0)) (((1 - v) * p1.getD j 0 + v * p5.getD j 0)) (((1 - v) * p2.getD j 0 + v * p6.getD j 0)) (((1 - v) * p3.getD j 0 + v * p7.getD j 0)) (fun x => by ring)]
  ring

theorem pos_31_0 {p0 p1 p2 p3 p4 p5 p6 p7 : List ℝ} {j : ℕ}
    (h : 0 < p1.getD j 0 - p0.getD j 0 ∧ 0 < p2.getD j 0 - p1.getD j 0 ∧ 0 < p3.getD j 0 - p2.getD j 0 ∧ 0 < p5.getD j 0 - p4.getD j 0 ∧ 0 < p6.getD j 0 - p5.getD j 0 ∧ 0 < p7.getD j 0 - p6.getD j 0) {u v : ℝ} (hu : 0 ≤ u ∧ u ≤ 1) (hv : 0 ≤ v ∧ v ≤ 1) :
    0 < deriv (fun x => point (bezier ⟨[3, 1], [p0, p1, p2, p3, p4, p5, p6, p7]⟩) [x, v] j) u := by
  rw [deriv_31_0]
  obtain ⟨e0, e1, e2, e3, e4, e5⟩ := h
  repeat' first | assumption | apply mix_pos | (apply mul_pos (by norm_num))

theorem flat_31_0 {p0 p1 p2 p3 p4 p5 p6 p7 : List ℝ} {j : ℕ}
    (h : p1.getD j 0 - p0.getD j 0 = 0 ∧ p2.getD j 0 - p1.getD j 0 = 0 ∧ p3.getD j 0 - p2.getD j 0 = 0 ∧ p5.getD j 0 - p4.getD j 0 = 0 ∧ p6.getD j 0 - p5.getD j 0 = 0 ∧ p7.getD j 0 - p6.getD j 0 = 0) {u v : ℝ} :
    deriv (fun x => point (bezier ⟨[3, 1], [p0, p1, p2, p3, p4, p5, p6, p7]⟩) [x, v] j) u = 0 := by
  rw [deriv_31_0]
  obtain ⟨e0, e1, e2, e3, e4, e5⟩ := h
  simp only [e0, e1, e2, e3, e4, e5, mul_zero, add_zero]

theorem deriv_31_1 (p0 p1 p2 p3 p4 p5 p6 p7 : List ℝ) (u v : ℝ) (j : ℕ) : deriv (fun x => point (bezier ⟨[3, 1], [p0, p1, p2, p3, p4, p5, p6, p7]⟩) [u, x] j) v =
    1 * ((1 - u) * ((1 - u) * ((1 - u) * (p4.getD j 0 - p0.getD j 0) + u * (p5.getD j 0 - p1.getD j 0)) + u * ((1 - u) * (p5.getD j 0 - p1.getD j 0) + u * (p6.getD j 0 - p2.getD j 0))) + u * ((1 - u) * ((1 - u) * (p5.getD j 0 - p1.getD j 0) + u * (p6.getD j 0 - p2.getD j 0)) + u * ((1 - u) * (p6.getD j 0 - p2.getD j 0) + u * (p7.getD j 0 - p3.getD j 0)))) := by
  simp only [point_31']
  rw [deriv_bern1 _ (((1 - u) * ((1 - u) * ((1 - u) * p0.getD j 0 + u * p1.getD j 0) + u * ((1 - u) * p1.getD j 0 + u * p2.getD j 0)) + u * ((1 - u) * ((1 - u) * p1.getD j 0 + u * p2.getD j 0) + u * ((1 - u) * p2.getD j 0 + u * p3.getD j 0)))) (((1 - u) * ((1 - u) * ((1 - u) * p4.getD j 0 + u * p5.getD j 0) + u * ((1 - u) * p5.getD j 0 + u * p6.getD j 0)) + u * ((1 - u) * ((1 - u) * p5.getD j 0 + u * p6.getD j 0) + u * ((1 - u) * p6.getD j 0 + u * p7.getD j 0)))) (fun x => by ring)]
  ring

theorem pos_31_1 {p0 p1 p2 p3 p4 p5 p6 p7 : List ℝ} {j : ℕ}
    (h : 0 < p4.getD j 0 - p0.getD j 0 ∧ 0 < p5.getD j 0 - p1.getD j 0 ∧ 0 < p6.getD j 0 - p2.getD j 0 ∧ 0 < p7.getD j 0 - p3.getD j 0) {u v : ℝ} (hu : 0 ≤ u ∧ u ≤ 1) (hv : 0 ≤ v ∧ v ≤ 1) :
    0 < deriv (fun x => point (bezier ⟨[3, 1], [p0, p1, p2, p3, p4, p5, p6, p7]⟩) [u, x] j) v := by
  rw [deriv_31_1]
  obtain ⟨e0, e1, e2, e3⟩ := h
  repeat' first | assumption | apply mix_pos | (apply mul_pos (by norm_num))

theorem flat_31_1 {p0 p1 p2 p3 p4 p5 p6 p7 : List ℝ} {j : ℕ}
    (h : p4.getD j 0 - p0.getD j 0 = 0 ∧ p5.getD j 0 - p1.getD j 0 = 0 ∧ p6.getD j 0 - p2.getD j 0 = 0 ∧ p7.getD j 0 - p3.getD j 0 = 0) {u v : ℝ} :
    deriv (fun x => point (bezier ⟨[3, 1], [p0, p1, p2, p3, p4, p5, p6, p7]⟩) [u, x] j) v = 0 := by
  rw [deriv_31_1]
  obtain ⟨e0, e1, e2, e3⟩ := h
  simp only [e0, e1, e2, e3, mul_zero, add_zero]

theorem point_111' (p0 p1 p2 p3 p4 p5 p6 p7 : List ℝ) (u v w : ℝ) (j : ℕ) : point (bezier ⟨[1, 1, 1], [p0, p1, p2, p3, p4, p5, p6, p7]⟩) [u, v, w] j =
    ((1 - w) * ((1 - v) * ((1 - u) * p0.getD j 0 + u * p1.getD j 0) + v * ((1 - u) * p2.getD j 0 + u * p3.getD j 0)) + w * ((1 - v) * ((1 - u) * p4.getD j 0 + u * p5.getD j 0) + v * ((1 - u) * p6.getD j 0 + u * p7.getD j 0))) := by
  simp [point, value, bezier, netSize, directions, Direction.size, basisValues, Direction.basis, tensorEval, basisProduct, digits, bernstein, List.range_succ, Nat.choose]
  ring

theorem deriv_111_0 (p0 p1 p2 p3 p4 p5 p6 p7 : List ℝ) (u v w : ℝ) (j : ℕ) : deriv (fun x => point (bezier ⟨[1, 1, 1], [p0, p1, p2, p3, p4, p5, p6, p7]⟩) [x, v, w] j) u =
    1 * ((1 - w) * ((1 - v) * (p1.getD j 0 - p0.getD j 0) + v * (p3.getD j 0 - p2.getD j 0)) + w * ((1 - v) * (p5.getD j 0 - p4.getD j 0) + v * (p7.getD j 0 - p6.getD j 0))) := by
  simp only [point_111']
  rw [deriv_bern1 _ (((1 - w) * ((1 - v) * p0.getD j 0 + v * p2.getD j 0) + w * ((1 - v) * p4.getD j 0 + v * p6.getD j 0))) (((1 - w) * ((1 - v) * p1.getD j 0 + v * p3.getD j 0) + w * ((1 - v) * p5.getD j 0 + v * p7.getD j 0))) (fun x => by ring)]
  ring

theorem pos_111_0 {p0 p1 p2 p3 p4 p5 p6 p7 : List ℝ} {j : ℕ}
    (h : 0 < p1.getD j 0 - p0.getD j 0 ∧ 0 < p3.getD j 0 - p2.getD j 0 ∧ 0 < p5.getD j 0 - p4.getD j 0 ∧ 0 < p7.getD j 0 - p6.getD j 0) {u v w : ℝ} (hu : 0 ≤ u ∧ u ≤ 1) (hv : 0 ≤ v ∧ v ≤ 1) (hw : 0 ≤ w ∧ w ≤ 1) :
    0 < deriv (fun x => point (bezier ⟨[1, 1, 1], [p0, p1, p2, p3, p4, p5, p6, p7]⟩) [x, v, w] j) u := by
  rw [deriv_111_0]
  obtain ⟨e0, e1, e2, e3⟩ := h
  repeat' first | assumption | apply mix_pos | (apply mul_pos (by norm_num))

theorem flat_111_0 {p0 p1 p2 p3 p4 p5 p6 p7 : List ℝ} {j : ℕ}
    (h : p1.getD j 0 - p0.getD j 0 = 0 ∧ p3.getD j 0 - p2.getD j 0 = 0 ∧ p5.getD j 0 - p4.getD j 0 = 0 ∧ p7.getD j 0 - p6.getD j 0 = 0) {u v w : ℝ} :
    deriv (fun x => point (bezier ⟨[1, 1, 1], [p0, p1, p2, p3, p4, p5, p6, p7]⟩) [x, v, w] j) u = 0 := by
  rw [deriv_111_0]
  obtain ⟨e0, e1, e2, e3⟩ := h
  simp only [e0, e1, e2, e3, mul_zero, add_zero]

theorem deriv_111_1 (p0 p1 p2 p3 p4 p5 p6 p7 : List ℝ) (u v w : ℝ) (j : ℕ) : deriv (fun x => point (bezier ⟨[1, 1, 1], [p0, p1, p2, p3, p4, p5, p6, p7]⟩) [u, x, w] j) v =
    1 * ((1 - w) * ((1 - u) * (p2.getD j 0 - p0.getD j 0) + u * (p3.getD j 0 - p1.getD j 0)) + w * ((1 - u) * (p6.getD j 0 - p4.getD j 0) + u * (p7.getD j 0 - p5.getD j 0))) := by
  simp only [point_111']
  rw [deriv_bern1 _ (((1 - w) * ((1 - u) * p0.getD j 0 + u * p1.getD j 0) + w * ((1 - u) * p4.getD j 0 + u * p5.getD j 0))) (((1 - w) * ((1 - u) * p2.getD j 0 + u * p3.getD j 0) + w * ((1 - u) * p6.getD j 0 + u * p7.getD j 0))) (fun x => by ring)]
  ring

theorem pos_111_1 {p0 p1 p2 p3 p4 p5 p6 p7 : List ℝ} {j : ℕ}
    (h : 0 < p2.getD j 0 - p0.getD j 0 ∧ 0 < p3.getD j 0 - p1.getD j 0 ∧ 0 < p6.getD j 0 - p4.getD j 0 ∧ 0 < p7.getD j 0 - p5.getD j 0) {u v w : ℝ} (hu : 0 ≤ u ∧ u ≤ 1) (hv : 0 ≤ v ∧ v ≤ 1) (hw : 0 ≤ w ∧ w ≤ 1) :
    0 < deriv (fun x => point (bezier ⟨[1, 1, 1], [p0, p1, p2, p3, p4, p5, p6, p7]⟩) [u, x, w] j) v := by
  rw [deriv_111_1]
  obtain ⟨e0, e1, e2, e3⟩ := h
  repeat' first | assumption | apply mix_pos | (apply mul_pos (by norm_num))

theorem flat_111_1 {p0 p1 p2 p3 p4 p5 p6 p7 : List ℝ} {j : ℕ}
    (h : p2.getD j 0 - p0.getD j 0 = 0 ∧ p3.getD j 0 - p1.getD j 0 = 0 ∧ p6.getD j 0 - p4.getD j 0 = 0 ∧ p7.getD j 0 - p5.getD j 0 = 0) {u v w : ℝ} :
    deriv (fun x => point (bezier ⟨[1, 1, 1], [p0, p1, p2, p3, p4, p5, p6, p7]⟩) [u, x, w] j) v = 0 := by
  rw [deriv_111_1]
  obtain ⟨e0, e1, e2, e3⟩ := h
  simp only [e0, e1, e2, e3, mul_zero, add_zero]

theorem deriv_111_2 (p0 p1 p2 p3 p4 p5 p6 p7 : List ℝ) (u v w : ℝ) (j : ℕ) : deriv (fun x => point (bezier ⟨[1, 1, 1], [p0, p1, p2, p3, p4, p5, p6, p7]⟩) [u, v, x] j) w =
    1 * ((1 - v) * ((1 - u) * (p4.getD j 0 - p0.getD j 0) + u * (p5.getD j 0 - p1.getD j 0)) + v * ((1 - u) * (p6.getD j 0 - p2.getD j 0) + u * (p7.getD j 0 - p3.getD j 0))) := by
  simp only [point_111']
  rw [deriv_bern1 _ (((1 - v) * ((1 - u) * p0.getD j 0 + u * p1.getD j 0) + v * ((1 - u) * p2.getD j 0 + u * p3.getD j 0))) (((1 - v) * ((1 - u) * p4.getD j 0 + u * p5.getD j 0) + v * ((1 - u) * p6.getD j 0 + u * p7.getD j 0))) (fun x => by ring)]
  ring

theorem pos_111_2 {p0 p1 p2 p3 p4 p5 p6 p7 : List ℝ} {j : ℕ}
    (h : 0 < p4.getD j 0 - p0.getD j 0 ∧ 0 < p5.getD j 0 - p1.getD j 0 ∧ 0 < p6.getD j 0 - p2.getD j 0 ∧ 0 < p7.getD j 0 - p3.getD j 0) {u v w : ℝ} (hu : 0 ≤ u ∧ u ≤ 1) (hv : 0 ≤ v ∧ v ≤ 1) (hw : 0 ≤ w ∧ w ≤ 1) :
    0 < deriv (fun x => point (bezier ⟨[1, 1, 1], [p0, p1, p2, p3, p4, p5, p6, p7]⟩) [u, v, x] j) w := by
  rw [deriv_111_2]
  obtain ⟨e0, e1, e2, e3⟩ := h
  repeat' first | assumption | apply mix_pos | (apply mul_pos (by norm_num))

theorem flat_111_2 {p0 p1 p2 p3 p4 p5 p6 p7 : List ℝ} {j : ℕ}
    (h : p4.getD j 0 - p0.getD j 0 = 0 ∧ p5.getD j 0 - p1.getD j 0 = 0 ∧ p6.getD j 0 - p2.getD j 0 = 0 ∧ p7.getD j 0 - p3.getD j 0 = 0) {u v w : ℝ} :
    deriv (fun x => point (bezier ⟨[1, 1, 1], [p0, p1, p2, p3, p4, p5, p6, p7]⟩) [u, v, x] j) w = 0 := by
  rw [deriv_111_2]
  obtain ⟨e0, e1, e2, e3⟩ := h
  simp only [e0, e1, e2, e3, mul_zero, add_zero]

theorem point_211' (p0 p1 p2 p3 p4 p5 p6 p7 p8 p9 p10 p11 : List ℝ) (u v w : ℝ) (j : ℕ) : point (bezier ⟨[2, 1, 1], [p0, p1, p2, p3, p4, p5, p6, p7, p8, p9, p10, p11]⟩) [u, v, w] j =
    ((1 - w) * ((1 - v) * ((1 - u) * ((1 - u) * p0.getD j 0 + u * p1.getD j 0) + u * ((1 - u) * p1.getD j 0 + u * p2.getD j 0)) + v * ((1 - u) * ((1 - u) * p3.getD j 0 + u * p4.getD j 0) + u * ((1 - u) * p4.getD j 0 + u * p5.getD j 0))) + w * ((1 - v) * ((1 - u) * ((1 - u) * p6.getD j 0 + u * p7.getD j 0) + u * ((1 - u) * p7.getD j 0 + u * p8.getD j 0)) + v * ((1 - u) * ((1 - u) * p9.getD j 0 + u * p10.getD j 0) + u * ((1 - u) * p10.getD j 0 + u * p11.getD j 0)))) := by
  simp [point, value, bezier, netSize, directions, Direction.size, basisValues, Direction.basis, tensorEval, basisProduct, digits, bernstein, List.range_succ, Nat.choose]
  ring

theorem deriv_211_0 (p0 p1 p2 p3 p4 p5 p6 p7 p8 p9 p10 p11 : List ℝ) (u v w : ℝ) (j : ℕ) : deriv (fun x => point (bezier ⟨[2, 1, 1], [p0, p1, p2, p3, p4, p5, p6, p7, p8, p9, p10, p11]⟩) [x, v, w] j) u =
    2 * ((1 - w) * ((1 - v) * ((1 - u) * (p1.getD j 0 - p0.getD j 0) + u * (p2.getD j 0 - p1.getD j 0)) + v * ((1 - u) * (p4.getD j 0 - p3.getD j 0) + u * (p5.getD j 0 - p4.getD j 0))) + w * ((1 - v) * ((1 - u) * (p7.getD j 0 - p6.getD j 0) + u * (p8.getD j 0 - p7.getD j 0)) + v * ((1 - u) * (p10.getD j 0 - p9.getD j 0) + u * (p11.getD j 0 - p10.getD j 0)))) := by
  simp only [point_211']
  rw [deriv_bern2 _ (((1 - w) * ((1 - v) * p0.getD j 0 + v * p3.getD j 0) + w * ((1 - v) * p6.getD j 0 + v * p9.getD j 0))) (((1 - w) * ((1 - v) * p1.getD j 0 + v * p4.getD j 0) + w * ((1 - v) * p7.getD j 0 + v * p10.getD j 0))) (((1 - w) * ((1 - v) * p2.getD j 0 + v * p5.getD j 0) + w * ((1 - v) * p8.getD j 0 + v * p11.getD j 0))) (fun x => by ring)]
  ring

theorem pos_211_0 {p0 p1 p2 p3 p4 p5 p6 p7 p8 p9 p10 p11 : List ℝ} {j : ℕ}
    (h : 0 < p1.getD j 0 - p0.getD j 0 ∧ 0 < p2.getD j 0 - p1.getD j 0 ∧ 0 < p4.getD j 0 - p3.getD j 0 ∧ 0 < p5.getD j 0 - p4.getD j 0 ∧ 0 < p7.getD j 0 - p6.getD j 0 ∧ 0 < p8.getD j 0 - p7.getD j 0 ∧ 0 < p10.getD j 0 - p9.getD j 0 ∧ 0 < p11.getD j 0 - p10.getD j 0) {u v w : ℝ} (hu : 0 ≤ u ∧ u ≤ 1) (hv : 0 ≤ v ∧ v ≤ 1) (hw : 0 ≤ w ∧ w ≤ 1) :
    0 < deriv (fun x => point (bezier ⟨[2, 1, 1], [p0, p1, p2, p3, p4, p5, p6, p7, p8, p9, p10, p11]⟩) [x, v, w] j) u := by
  rw [deriv_211_0]
  obtain ⟨e0, e1, e2, e3, e4, e5, e6, e7⟩ := h
  repeat' first | assumption | apply mix_pos | (apply mul_pos (by norm_num))

theorem flat_211_0 {p0 p1 p2 p3 p4 p5 p6 p7 p8 p9 p10 p11 : List ℝ} {j : ℕ}
    (h : p1.getD j 0 - p0.getD j 0 = 0 ∧ p2.getD j 0 - p1.getD j 0 = 0 ∧ p4.getD j 0 - p3.getD j 0 = 0 ∧ p5.getD j 0 - p4.getD j 0 = 0 ∧ p7.getD j 0 - p6.getD j 0 = 0 ∧ p8.getD j 0 - p7.getD j 0 = 0 ∧ p10.getD j 0 - p9.getD j 0 = 0 ∧ p11.getD j 0 - p10.getD j 0 = 0) {u v w : ℝ} :
    deriv (fun x => point (bezier ⟨[2, 1, 1], [p0, p1, p2, p3, p4, p5, p6, p7, p8, p9, p10, p11]⟩) [x, v, w] j) u = 0 := by
  rw [deriv_211_0]
  obtain ⟨e0, e1, e2, e3, e4, e5, e6, e7⟩ := h
  simp only [e0, e1, e2, e3, e4, e5, e6, e7, mul_zero, add_zero]

theorem deriv_211_1 (p0 p1 p2 p3 p4 p5 p6 p7 p8 p9 p10 p11 : List ℝ) (u v w : ℝ) (j : ℕ) : deriv (fun x => point (bezier ⟨[2, 1, 1], [p0, p1, p2, p3, p4, p5, p6, p7, p8, p9, p10, p11]⟩) [u, x, w] j) v =
    1 * ((1 - w) * ((1 - u) * ((1 - u) * (p3.getD j 0 - p0.getD j 0) + u * (p4.getD j 0 - p1.getD j 0)) + u * ((1 - u) * (p4.getD j 0 - p1.getD j 0) + u * (p5.getD j 0 - p2.getD j 0))) + w * ((1 - u) * ((1 - u) * (p9.getD j 0 - p6.getD j 0) + u * (p10.getD j 0 - p7.getD j 0)) + u * ((1 - u) * (p10.getD j 0 - p7.getD j 0) + u * (p11.getD j 0 - p8.getD j 0)))) := by
  simp only [point_211']
  rw [deriv_bern1 _ (((1 - w) * ((1 - u) * ((1 - u) * p0.getD j 0 + u * p1.getD j 0) + u * ((1 - u) * p1.getD j 0 + u * p2.getD j 0)) + w * ((1 - u) * ((1 - u) * p6.getD j 0 + u * p7.getD j 0) + u * ((1 - u) * p7.getD j 0 + u * p8.getD j 0)))) (((1 - w) * ((1 - u) * ((1 - u) * p3.getD j 0 + u * p4.getD j 0) + u * ((1 - u) * p4.getD j 0 + u * p5.getD j 0)) + w * ((1 - u) * ((1 - u) * p9.getD j 0 + u * p10.getD j 0) + u * ((1 - u) * p10.getD j 0 + u * p11.getD j 0)))) (fun x => by ring)]
  ring

theorem pos_211_1 {p0 p1 p2 p3 p4 p5 p6 p7 p8 p9 p10 p11 : List ℝ} {j : ℕ}
    (h : 0 < p3.getD j 0 - p0.getD j 0 ∧ 0 < p4.getD j 0 - p1.getD j 0 ∧ 0 < p5.getD j 0 - p2.getD j 0 ∧ 0 < p9.getD j 0 - p6.getD j 0 ∧ 0 < p10.getD j 0 - p7.getD j 0 ∧ 0 < p11.getD j 0 - p8.getD j 0) {u v w : ℝ} (hu : 0 ≤ u ∧ u ≤ 1) (hv : 0 ≤ v ∧ v ≤ 1) (hw : 0 ≤ w ∧ w ≤ 1) :
    0 < deriv (fun x => point (bezier ⟨[2, 1, 1], [p0, p1, p2, p3, p4, p5, p6, p7, p8, p9, p10, p11]⟩) [u, x, w] j) v := by
  rw [deriv_211_1]
  obtain ⟨e0, e1, e2, e3, e4, e5⟩ := h
  repeat' first | assumption | apply mix_pos | (apply mul_pos (by norm_num))

theorem flat_211_1 {p0 p1 p2 p3 p4 p5 p6 p7 p8 p9 p10 p11 : List ℝ} {j : ℕ}
    (h : p3.getD j 0 - p0.getD j 0 = 0 ∧ p4.getD j 0 - p1.getD j 0 = 0 ∧ p5.getD j 0 - p2.getD j 0 = 0 ∧ p9.getD j 0 - p6.getD j 0 = 0 ∧ p10.getD j 0 - p7.getD j 0 = 0 ∧ p11.getD j 0 - p8.getD j 0 = 0) {u v w : ℝ} :
    deriv (fun x => point (bezier ⟨[2, 1, 1], [p0, p1, p2, p3, p4, p5, p6, p7, p8, p9, p10, p11]⟩) [u, x, w] j) v = 0 := by
  rw [deriv_211_1]
  obtain ⟨e0, e1, e2, e3, e4, e5⟩ := h
  simp only [e0, e1, e2, e3, e4, e5, mul_zero, add_zero]

theorem deriv_211_2 (p0 p1 p2 p3 p4 p5 p6 p7 p8 p9 p10 p11 : List ℝ) (u v w : ℝ) (j : ℕ) : deriv (fun x => point (bezier ⟨[2, 1, 1], [p0, p1, p2, p3, p4, p5, p6, p7, p8, p9, p10, p11]⟩) [u, v, x] j) w =
    1 * ((1 - v) * ((1 - u) * ((1 - u) * (p6.getD j 0 - p0.getD j 0) + u * (p7.getD j 0 - p1.getD j 0)) + u * ((1 - u) * (p7.getD j 0 - p1.getD j 0) + u * (p8.getD j 0 - p2.getD j 0))) + v * ((1 - u) * ((1 - u) * (p9.getD j 0 - p3.getD j 0) + u * (p10.getD j 0 - p4.getD j 0)) + u * ((1 - u) * (p10.getD j 0 - p4.getD j 0) + u * (p11.getD j 0 - p5.getD j 0)))) := by
  simp only [point_211']
  rw [deriv_bern1 _ (((1 - v) * ((1 - u) * ((1 - u) * p0.getD j 0 + u * p1.getD j 0) + u * ((1 - u) * p1.getD j 0 + u * p2.getD j 0)) + v * ((1 - u) * ((1 - u) * p3.getD j 0 + u * p4.getD j 0) + u * ((1 - u) * p4.getD j 0 + u * p5.getD j 0)))) (((1 - v) * ((1 - u) * ((1 - u) * p6.getD j 0 + u * p7.getD j 0) + u * ((1 - u) * p7.getD j 0 + u * p8.getD j 0)) + v * ((1 - u) * ((1 - u) * p9.getD j 0 + u * p10.getD j 0) + u * ((1 - u) * p10.getD j 0 + u * p11.getD j 0)))) (fun x => by ring)]
  ring

theorem pos_211_2 {p0 p1 p2 p3 p4 p5 p6 p7 p8 p9 p10 p11 : List ℝ} {j : ℕ}
    (h : 0 < p6.getD j 0 - p0.getD j 0 ∧ 0 < p7.getD j 0 - p1.getD j 0 ∧ 0 < p8.getD j 0 - p2.getD j 0 ∧ 0 < p9.getD j 0 - p3.getD j 0 ∧ 0 < p10.getD j 0 - p4.getD j 0 ∧ 0 < p11.getD j 0 - p5.getD j 0) {u v w : ℝ} (hu : 0 ≤ u ∧ u ≤ 1) (hv : 0 ≤ v ∧ v ≤ 1) (hw : 0 ≤ w ∧ w ≤ 1) :
    0 < deriv (fun x => point (bezier ⟨[2, 1, 1], [p0, p1, p2, p3, p4, p5, p6, p7, p8, p9, p10, p11]⟩) [u, v, x] j) w := by
  rw [deriv_211_2]
  obtain ⟨e0, e1, e2, e3, e4, e5⟩ := h
  repeat' first | assumption | apply mix_pos | (apply mul_pos (by norm_num))

theorem flat_211_2 {p0 p1 p2 p3 p4 p5 p6 p7 p8 p9 p10 p11 : List ℝ} {j : ℕ}
    (h : p6.getD j 0 - p0.getD j 0 = 0 ∧ p7.getD j 0 - p1.getD j 0 = 0 ∧ p8.getD j 0 - p2.getD j 0 = 0 ∧ p9.getD j 0 - p3.getD j 0 = 0 ∧ p10.getD j 0 - p4.getD j 0 = 0 ∧ p11.getD j 0 - p5.getD j 0 = 0) {u v w : ℝ} :
    deriv (fun x => point (bezier ⟨[2, 1, 1], [p0, p1, p2, p3, p4, p5, p6, p7, p8, p9, p10, p11]⟩) [u, v, x] j) w = 0 := by
  rw [deriv_211_2]
  obtain ⟨e0, e1, e2, e3, e4, e5⟩ := h
  simp only [e0, e1, e2, e3, e4, e5, mul_zero, add_zero]

theorem point_121' (p0 p1 p2 p3 p4 p5 p6 p7 p8 p9 p10 p11 : List ℝ) (u v w : ℝ) (j : ℕ) : point (bezier ⟨[1, 2, 1], [p0, p1, p2, p3, p4, p5, p6, p7, p8, p9, p10, p11]⟩) [u, v, w] j =
    ((1 - w) * ((1 - v) * ((1 - v) * ((1 - u) * p0.getD j 0 + u * p1.getD j 0) + v * ((1 - u) * p2.getD j 0 + u * p3.getD j 0)) + v * ((1 - v) * ((1 - u) * p2.getD j 0 + u * p3.getD j 0) + v * ((1 - u) * p4.getD j 0 + u * p5.getD j 0))) + w * ((1 - v) * ((1 - v) * ((1 - u) * p6.getD j 0 + u * p7.getD j 0) + v * ((1 - u) * p8.getD j 0 + u * p9.getD j 0)) + v * ((1 - v) * ((1 - u) * p8.getD j 0 + u * p9.getD j 0) + v * ((1 - u) * p10.getD j 0 + u * p11.getD j 0)))) := by
  simp [point, value, bezier, netSize, directions, Direction.size, basisValues, Direction.basis, tensorEval, basisProduct, digits, bernstein, List.range_succ, Nat.choose]
  ring

theorem deriv_121_0 (p0 p1 p2 p3 p4 p5 p6 p7 p8 p9 p10 p11 : List ℝ) (u v w : ℝ) (j : ℕ) : deriv (fun x => point (bezier ⟨[1, 2, 1], [p0, p1, p2, p3, p4, p5, p6, p7, p8, p9, p10, p11]⟩) [x, v, w] j) u =
    1 * ((1 - w) * ((1 - v) * ((1 - v) * (p1.getD j 0 - p0.getD j 0) + v * (p3.getD j 0 - p2.getD j 0)) + v * ((1 - v) * (p3.getD j 0 - p2.getD j 0) + v * (p5.getD j 0 - p4.getD j 0))) + w * ((1 - v) * ((1 - v) * (p7.getD j 0 - p6.getD j 0) + v * (p9.getD j 0 - p8.getD j 0)) + v * ((1 - v) * (p9.getD j 0 - p8.getD j 0) + v * (p11.getD j 0 - p10.getD j 0)))) := by
  simp only [point_121']
  rw [deriv_bern1 _ (((1 - w) * ((1 - v) * ((1 - v) * p0.getD j 0 + v * p2.getD j 0) + v * ((1 - v) * p2.getD j 0 + v * p4.getD j 0)) + w * ((1 - v) * ((1 - v) * p6.getD j 0 + v * p8.getD j 0) + v * ((1 - v) * p8.getD j 0 + v * p10.getD j 0)))) (((1 - w) * ((1 - v) * ((1 - v) * p1.getD j 0 + v * p3.getD j 0) + v * ((1 - v) * p3.getD j 0 + v * p5.getD j 0)) + w * ((1 - v) * ((1 - v) * p7.getD j 0 + v * p9.getD j 0) + v * ((1 - v) * p9.getD j 0 + v * p11.getD j 0)))) (fun x => by ring)]
  ring

theorem pos_121_0 {p0 p1 p2 p3 p4 p5 p6 p7 p8 p9 p10 p11 : List ℝ} {j : ℕ}
    (h : 0 < p1.getD j 0 - p0.getD j 0 ∧ 0 < p3.getD j 0 - p2.getD j 0 ∧ 0 < p5.getD j 0 - p4.getD j 0 ∧ 0 < p7.getD j 0 - p6.getD j 0 ∧ 0 < p9.getD j 0 - p8.getD j 0 ∧ 0 < p11.getD j 0 - p10.getD j 0) {u v w : ℝ} (hu : 0 ≤ u ∧ u ≤ 1) (hv : 0 ≤ v ∧ v ≤ 1) (hw : 0 ≤ w ∧ w ≤ 1) :
    0 < deriv (fun x => point (bezier ⟨[1, 2, 1], [p0, p1, p2, p3, p4, p5, p6, p7, p8, p9, p10, p11]⟩) [x, v, w] j) u := by
  rw [deriv_121_0]
  obtain ⟨e0, e1, e2, e3, e4, e5⟩ := h
  repeat' first | assumption | apply mix_pos | (apply mul_pos (by norm_num))

theorem flat_121_0 {p0 p1 p2 p3 p4 p5 p6 p7 p8 p9 p10 p11 : List ℝ} {j : ℕ}
    (h : p1.getD j 0 - p0.getD j 0 = 0 ∧ p3.getD j 0 - p2.getD j 0 = 0 ∧ p5.getD j 0 - p4.getD j 0 = 0 ∧ p7.getD j 0 - p6.getD j 0 = 0 ∧ p9.getD j 0 - p8.getD j 0 = 0 ∧ p11.getD j 0 - p10.getD j 0 = 0) {u v w : ℝ} :
    deriv (fun x => point (bezier ⟨[1, 2, 1], [p0, p1, p2, p3, p4, p5, p6, p7, p8, p9, p10, p11]⟩) [x, v, w] j) u = 0 := by
  rw [deriv_121_0]
  obtain ⟨e0, e1, e2, e3, e4, e5⟩ := h
  simp only [e0, e1, e2, e3, e4, e5, mul_zero, add_zero]

theorem deriv_121_1 (p0 p1 p2 p3 p4 p5 p6 p7 p8 p9 p10 p11 : List ℝ) (u v w : ℝ) (j : ℕ) : deriv (fun x => point (bezier ⟨[1, 2, 1], [p0, p1, p2, p3, p4, p5, p6, p7, p8, p9, p10, p11]⟩) [u, x, w] j) v =
    2 * ((1 - w) * ((1 - v) * ((1 - u) * (p2.getD j 0 - p0.getD j 0) + u * (p3.getD j 0 - p1.getD j 0)) + v * ((1 - u) * (p4.getD j 0 - p2.getD j 0) + u * (p5.getD j 0 - p3.getD j 0))) + w * ((1 - v) * ((1 - u) * (p8.getD j 0 - p6.getD j 0) + u * (p9.getD j 0 - p7.getD j 0)) + v * ((1 - u) * (p10.getD j 0 - p8.getD j 0) + u * (p11.getD j 0 - p9.getD j 0)))) := by
  simp only [point_121']
  rw [deriv_bern2 _ (((1 - w) * ((1 - u) * p0.getD j 0 + u * p1.getD j 0) + w * ((1 - u) * p6.getD j 0 + u * p7.getD j 0))) (((1 - w) * ((1 - u) * p2.getD j 0 + u * p3.getD j 0) + w * ((1 - u) * p8.getD j 0 + u * p9.getD j 0))) (((1 - w) * ((1 - u) * p4.getD j 0 + u * p5.getD j 0) + w * ((1 - u) * p10.getD j 0 + u * p11.getD j 0))) (fun x => by ring)]
  ring

theorem pos_121_1 {p0 p1 p2 p3 p4 p5 p6 p7 p8 p9 p10 p11 : List ℝ} {j : ℕ}
    (h : 0 < p2.getD j 0 - p0.getD j 0 ∧ 0 < p3.getD j 0 - p1.getD j 0 ∧ 0 < p4.getD j 0 - p2.getD j 0 ∧ 0 < p5.getD j 0 - p3.getD j 0 ∧ 0 < p8.getD j 0 - p6.getD j 0 ∧ 0 < p9.getD j 0 - p7.getD j 0 ∧ 0 < p10.getD j 0 - p8.getD j 0 ∧ 0 < p11.getD j 0 - p9.getD j 0) {u v w : ℝ} (hu : 0 ≤ u ∧ u ≤ 1) (hv : 0 ≤ v ∧ v ≤ 1) (hw : 0 ≤ w ∧ w ≤ 1) :
    0 < deriv (fun x => point (bezier ⟨[1, 2, 1], [p0, p1, p2, p3, p4, p5, p6, p7, p8, p9, p10, p11]⟩) [u, x, w] j) v := by
  rw [deriv_121_1]
  obtain ⟨e0, e1, e2, e3, e4, e5, e6, e7⟩ := h
  repeat' first | assumption | apply mix_pos | (apply mul_pos (by norm_num))

theorem flat_121_1 {p0 p1 p2 p3 p4 p5 p6 p7 p8 p9 p10 p11 : List ℝ} {j : ℕ}
    (h : p2.getD j 0 - p0.getD j 0 = 0 ∧ p3.getD j 0 - p1.getD j 0 = 0 ∧ p4.getD j 0 - p2.getD j 0 = 0 ∧ p5.getD j 0 - p3.getD j 0 = 0 ∧ p8.getD j 0 - p6.getD j 0 = 0 ∧ p9.getD j 0 - p7.getD j 0 = 0 ∧ p10.getD j 0 - p8.getD j 0 = 0 ∧ p11.getD j 0 - p9.getD j 0 = 0) {u v w : ℝ} :
    deriv (fun x => point (bezier ⟨[1, 2, 1], [p0, p1, p2, p3, p4, p5, p6, p7, p8, p9, p10, p11]⟩) [u, x, w] j) v = 0 := by
  rw [deriv_121_1]
  obtain ⟨e0, e1, e2, e3, e4, e5, e6, e7⟩ := h
  simp only [e0, e1, e2, e3, e4, e5, e6, e7, mul_zero, add_zero]

theorem deriv_121_2 (p0 p1 p2 p3 p4 p5 p6 p7 p8 p9 p10 p11 : List ℝ) (u v w : ℝ) (j : ℕ) : deriv (fun x => point (bezier ⟨[1, 2, 1], [p0, p1, p2, p3, p4, p5, p6, p7, p8, p9, p10, p11]⟩) [u, v, x] j) w =
    1 * ((1 - v) * ((1 - v) * ((1 - u) * (p6.getD j 0 - p0.getD j 0) + u * (p7.getD j 0 - p1.getD j 0)) + v * ((1 - u) * (p8.getD j 0 - p2.getD j 0) + u * (p9.getD j 0 - p3.getD j 0))) + v * ((1 - v) * ((1 - u) * (p8.getD j 0 - p2.getD j 0) + u * (p9.getD j 0 - p3.getD j 0)) + v * ((1 - u) * (p10.getD j 0 - p4.getD j 0) + u * (p11.getD j 0 - p5.getD j 0)))) := by
  simp only [point_121']
  rw [deriv_bern1 _ (((1 - v) * ((1 - v) * ((1 - u) * p0.getD j 0 + u * p1.getD j 0) + v * ((1 - u) * p2.getD j 0 + u * p3.getD j 0)) + v * ((1 - v) * ((1 - u) * p2.getD j 0 + u * p3.getD j 0) + v * ((1 - u) * p4.getD j 0 + u * p5.getD j 0)))) (((1 - v) * ((1 - v) * ((1 - u) * p6.getD j 0 + u * p7.getD j 0) + v * ((1 - u) * p8.getD j 0 + u * p9.getD j 0)) + v * ((1 - v) * ((1 - u) * p8.getD j 0 + u * p9.getD j 0) + v * ((1 - u) * p10.getD j 0 + u * p11.getD j 0)))) (fun x => by ring)]
  ring

theorem pos_121_2 {p0 p1 p2 p3 p4 p5 p6 p7 p8 p9 p10 p11 : List ℝ} {j : ℕ}
    (h : 0 < p6.getD j 0 - p0.getD j 0 ∧ 0 < p7.getD j 0 - p1.getD j 0 ∧ 0 < p8.getD j 0 - p2.getD j 0 ∧ 0 < p9.getD j 0 - p3.getD j 0 ∧ 0 < p10.getD j 0 - p4.getD j 0 ∧ 0 < p11.getD j 0 - p5.getD j 0) {u v w : ℝ} (hu : 0 ≤ u ∧ u ≤ 1) (hv : 0 ≤ v ∧ v ≤ 1) (hw : 0 ≤ w ∧ w ≤ 1) :
    0 < deriv (fun x => point (bezier ⟨[1, 2, 1], [p0, p1, p2, p3, p4, p5, p6, p7, p8, p9, p10, p11]⟩) [u, v, x] j) w := by
  rw [deriv_121_2]
  obtain ⟨e0, e1, e2, e3, e4, e5⟩ := h
  repeat' first | assumption | apply mix_pos | (apply mul_pos (by norm_num))

theorem flat_121_2 {p0 p1 p2 p3 p4 p5 p6 p7 p8 p9 p10 p11 : List ℝ} {j : ℕ}
    (h : p6.getD j 0 - p0.getD j 0 = 0 ∧ p7.getD j 0 - p1.getD j 0 = 0 ∧ p8.getD j 0 - p2.getD j 0 = 0 ∧ p9.getD j 0 - p3.getD j 0 = 0 ∧ p10.getD j 0 - p4.getD j 0 = 0 ∧ p11.getD j 0 - p5.getD j 0 = 0) {u v w : ℝ} :
    deriv (fun x => point (bezier ⟨[1, 2, 1], [p0, p1, p2, p3, p4, p5, p6, p7, p8, p9, p10, p11]⟩) [u, v, x] j) w = 0 := by
  rw [deriv_121_2]
  obtain ⟨e0, e1, e2, e3, e4, e5⟩ := h
  simp only [e0, e1, e2, e3, e4, e5, mul_zero, add_zero]

theorem point_112' (p0 p1 p2 p3 p4 p5 p6 p7 p8 p9 p10 p11 : List ℝ) (u v w : ℝ) (j : ℕ) : point (bezier ⟨[1, 1, 2], [p0, p1, p2, p3, p4, p5, p6, p7, p8, p9, p10, p11]⟩) [u, v, w] j =
    ((1 - w) * ((1 - w) * ((1 - v) * ((1 - u) * p0.getD j 0 + u * p1.getD j 0) + v * ((1 - u) * p2.getD j 0 + u * p3.getD j 0)) + w * ((1 - v) * ((1 - u) * p4.getD j 0 + u * p5.getD j 0) + v * ((1 - u) * p6.getD j 0 + u * p7.getD j 0))) + w * ((1 - w) * ((1 - v) * ((1 - u) * p4.getD j 0 + u * p5.getD j 0) + v * ((1 - u) * p6.getD j 0 + u * p7.getD j 0)) + w * ((1 - v) * ((1 - u) * p8.getD j 0 + u * p9.getD j 0) + v * ((1 - u) * p10.getD j 0 + u * p11.getD j 0)))) := by
  simp [point, value, bezier, netSize, directions, Direction.size, basisValues, Direction.basis, tensorEval, basisProduct, digits, bernstein, List.range_succ, Nat.choose]
  ring

theorem deriv_112_0 (p0 p1 p2 p3 p4 p5 p6 p7 p8 p9 p10 p11 : List ℝ) (u v w : ℝ) (j : ℕ) : deriv (fun x => point (bezier ⟨[1, 1, 2], [p0, p1, p2, p3, p4, p5, p6, p7, p8, p9, p10, p11]⟩) [x, v, w] j) u =
    1 * ((1 - w) * ((1 - w) * ((1 - v) * (p1.getD j 0 - p0.getD j 0) + v * (p3.getD j 0 - p2.getD j 0)) + w * ((1 - v) * (p5.getD j 0 - p4.getD j 0) + v * (p7.getD j 0 - p6.getD j 0))) + w * ((1 - w) * ((1 - v) * (p5.getD j 0 - p4.getD j 0) + v * (p7.getD j 0 - p6.getD j 0)) + w * ((1 - v) * (p9.getD j 0 - p8.getD j 0) + v * (p11.getD j 0 - p10.getD j 0)))) := by
  simp only [point_112']
  rw [deriv_bern1 _ (((1 - w) * ((1 - w) * ((1 - v) * p0.getD j 0 + v * p2.getD j 0) + w * ((1 - v) * p4.getD j 0 + v * p6.getD j 0)) + w * ((1 - w) * ((1 - v) * p4.getD j 0 + v * p6.getD j 0) + w * ((1 - v) * p8.getD j 0 + v * p10.getD j 0)))) (((1 - w) * ((1 - w) * ((1 - v) * p1.getD j 0 + v * p3.getD j 0) + w * ((1 - v) * p5.getD j 0 + v * p7.getD j 0)) + w * ((1 - w) * ((1 - v) * p5.getD j 0 + v * p7.getD j 0) + w * ((1 - v) * p9.getD j 0 + v * p11.getD j 0)))) (fun x => by ring)]
  ring

theorem pos_112_0 {p0 p1 p2 p3 p4 p5 p6 p7 p8 p9 p10 p11 : List ℝ} {j : ℕ}
    (h : 0 < p1.getD j 0 - p0.getD j 0 ∧ 0 < p3.getD j 0 - p2.getD j 0 ∧ 0 < p5.getD j 0 - p4.getD j 0 ∧ 0 < p7.getD j 0 - p6.getD j 0 ∧ 0 < p9.getD j 0 - p8.getD j 0 ∧ 0 < p11.getD j 0 - p10.getD j 0) {u v w : ℝ} (hu : 0 ≤ u ∧ u ≤ 1) (hv : 0 ≤ v ∧ v ≤ 1) (hw : 0 ≤ w ∧ w ≤ 1) :
    0 < deriv (fun x => point (bezier ⟨[1, 1, 2], [p0, p1, p2, p3, p4, p5, p6, p7, p8, p9, p10, p11]⟩) [x, v, w] j) u := by
  rw [deriv_112_0]
  obtain ⟨e0, e1, e2, e3, e4, e5⟩ := h
  repeat' first | assumption | apply mix_pos | (apply mul_pos (by norm_num))

theorem flat_112_0 {p0 p1 p2 p3 p4 p5 p6 p7 p8 p9 p10 p11 : List ℝ} {j : ℕ}
    (h : p1.getD j 0 - p0.getD j 0 = 0 ∧ p3.getD j 0 - p2.getD j 0 = 0 ∧ p5.getD j 0 - p4.getD j 0 = 0 ∧ p7.getD j 0 - p6.getD j 0 = 0 ∧ p9.getD j 0 - p8.getD j 0 = 0 ∧ p11.getD j 0 - p10.getD j 0 = 0) {u v w : ℝ} :
    deriv (fun x => point (bezier ⟨[1, 1, 2], [p0, p1, p2, p3, p4, p5, p6, p7, p8, p9, p10, p11]⟩) [x, v, w] j) u = 0 := by
  rw [deriv_112_0]
  obtain ⟨e0, e1, e2, e3, e4, e5⟩ := h
  simp only [e0, e1, e2, e3, e4, e5, mul_zero, add_zero]

theorem deriv_112_1 (p0 p1 p2 p3 p4 p5 p6 p7 p8 p9 p10 p11 : List ℝ) (u v w : ℝ) (j : ℕ) : deriv (fun x => point (bezier ⟨[1, 1, 2], [p0, p1, p2, p3, p4, p5, p6, p7, p8, p9, p10, p11]⟩) [u, x, w] j) v =
    1 * ((1 - w) * ((1 - w) * ((1 - u) * (p2.getD j 0 - p0.getD j 0) + u * (p3.getD j 0 - p1.getD j 0)) + w * ((1 - u) * (p6.getD j 0 - p4.getD j 0) + u * (p7.getD j 0 - p5.getD j 0))) + w * ((1 - w) * ((1 - u) * (p6.getD j 0 - p4.getD j 0) + u * (p7.getD j 0 - p5.getD j 0)) + w * ((1 - u) * (p10.getD j 0 - p8.getD j 0) + u * (p11.getD j 0 - p9.getD j 0)))) := by
  simp only [point_112']
  rw [deriv_bern1 _ (((1 - w) * ((1 - w) * ((1 - u) * p0.getD j 0 + u * p1.getD j 0) + w * ((1 - u) * p4.getD j 0 + u * p5.getD j 0)) + w * ((1 - w) * ((1 - u) * p4.getD j 0 + u * p5.getD j 0) + w * ((1 - u) * p8.getD j 0 + u * p9.getD j 0)))) (((1 - w) * ((1 - w) * ((1 - u) * p2.getD j 0 + u * p3.getD j 0) + w * ((1 - u) * p6.getD j 0 + u * p7.getD j 0)) + w * ((1 - w) * ((1 - u) * p6.getD j 0 + u * p7.getD j 0) + w * ((1 - u) * p10.getD j 0 + u * p11.getD j 0)))) (fun x => by ring)]
  ring

theorem pos_112_1 {p0 p1 p2 p3 p4 p5 p6 p7 p8 p9 p10 p11 : List ℝ} {j : ℕ}
    (h : 0 < p2.getD j 0 - p0.getD j 0 ∧ 0 < p3.getD j 0 - p1.getD j 0 ∧ 0 < p6.getD j 0 - p4.getD j 0 ∧ 0 < p7.getD j 0 - p5.getD j 0 ∧ 0 < p10.getD j 0 - p8.getD j 0 ∧ 0 < p11.getD j 0 - p9.getD j 0) {u v w : ℝ} (hu : 0 ≤ u ∧ u ≤ 1) (hv : 0 ≤ v ∧ v ≤ 1) (hw : 0 ≤ w ∧ w ≤ 1) :
    0 < deriv (fun x => point (bezier ⟨[1, 1, 2], [p0, p1, p2, p3, p4, p5, p6, p7, p8, p9, p10, p11]⟩) [u, x, w] j) v := by
  rw [deriv_112_1]
  obtain ⟨e0, e1, e2, e3, e4, e5⟩ := h
  repeat' first | assumption | apply mix_pos | (apply mul_pos (by norm_num))

theorem flat_112_1 {p0 p1 p2 p3 p4 p5 p6 p7 p8 p9 p10 p11 : List ℝ} {j : ℕ}
    (h : p2.getD j 0 - p0.getD j 0 = 0 ∧ p3.getD j 0 - p1.getD j 0 = 0 ∧ p6.getD j 0 - p4.getD j 0 = 0 ∧ p7.getD j 0 - p5.getD j 0 = 0 ∧ p10.getD j 0 - p8.getD j 0 = 0 ∧ p11.getD j 0 - p9.getD j 0 = 0) {u v w : ℝ} :
    deriv (fun x => point (bezier ⟨[1, 1, 2], [p0, p1, p2, p3, p4, p5, p6, p7, p8, p9, p10, p11]⟩) [u, x, w] j) v = 0 := by
  rw [deriv_112_1]
  obtain ⟨e0, e1, e2, e3, e4, e5⟩ := h
  simp only [e0, e1, e2, e3, e4, e5, mul_zero, add_zero]

theorem deriv_112_2 (p0 p1 p2 p3 p4 p5 p6 p7 p8 p9 p10 p11 : List ℝ) (u v w : ℝ) (j : ℕ) : deriv (fun x => point (bezier ⟨[1, 1, 2], [p0, p1, p2, p3, p4, p5, p6, p7, p8, p9, p10, p11]⟩) [u, v, x] j) w =
    2 * ((1 - w) * ((1 - v) * ((1 - u) * (p4.getD j 0 - p0.getD j 0) + u * (p5.getD j 0 - p1.getD j 0)) + v * ((1 - u) * (p6.getD j 0 - p2.getD j 0) + u * (p7.getD j 0 - p3.getD j 0))) + w * ((1 - v) * ((1 - u) * (p8.getD j 0 - p4.getD j 0) + u * (p9.getD j 0 - p5.getD j 0)) + v * ((1 - u) * (p10.getD j 0 - p6.getD j 0) + u * (p11.getD j 0 - p7.getD j 0)))) := by
  simp only [point_112']
  rw [deriv_bern2 _ (((1 - v) * ((1 - u) * p0.getD j 0 + u * p1.getD j 0) + v * ((1 - u) * p2.getD j 0 + u * p3.getD j 0))) (((1 - v) * ((1 - u) * p4.getD j 0 + u * p5.getD j 0) + v * ((1 - u) * p6.getD j 0 + u * p7.getD j 0))) (((1 - v) * ((1 - u) * p8.getD j 0 + u * p9.getD j 0) + v * ((1 - u) * p10.getD j 0 + u * p11.getD j 0))) (fun x => by ring)]
  ring

theorem pos_112_2 {p0 p1 p2 p3 p4 p5 p6 p7 p8 p9 p10 p11 : List ℝ} {j : ℕ}
    (h : 0 < p4.getD j 0 - p0.getD j 0 ∧ 0 < p5.getD j 0 - p1.getD j 0 ∧ 0 < p6.getD j 0 - p2.getD j 0 ∧ 0 < p7.getD j 0 - p3.getD j 0 ∧ 0 < p8.getD j 0 - p4.getD j 0 ∧ 0 < p9.getD j 0 - p5.getD j 0 ∧ 0 < p10.getD j 0 - p6.getD j 0 ∧ 0 < p11.getD j 0 - p7.getD j 0) {u v w : ℝ} (hu : 0 ≤ u ∧ u ≤ 1) (hv : 0 ≤ v ∧ v ≤ 1) (hw : 0 ≤ w ∧ w ≤ 1) :
    0 < deriv (fun x => point (bezier ⟨[1, 1, 2], [p0, p1, p2, p3, p4, p5, p6, p7, p8, p9, p10, p11]⟩) [u, v, x] j) w := by
  rw [deriv_112_2]
  obtain ⟨e0, e1, e2, e3, e4, e5, e6, e7⟩ := h
  repeat' first | assumption | apply mix_pos | (apply mul_pos (by norm_num))

theorem flat_112_2 {p0 p1 p2 p3 p4 p5 p6 p7 p8 p9 p10 p11 : List ℝ} {j : ℕ}
    (h : p4.getD j 0 - p0.getD j 0 = 0 ∧ p5.getD j 0 - p1.getD j 0 = 0 ∧ p6.getD j 0 - p2.getD j 0 = 0 ∧ p7.getD j 0 - p3.getD j 0 = 0 ∧ p8.getD j 0 - p4.getD j 0 = 0 ∧ p9.getD j 0 - p5.getD j 0 = 0 ∧ p10.getD j 0 - p6.getD j 0 = 0 ∧ p11.getD j 0 - p7.getD j 0 = 0) {u v w : ℝ} :
    deriv (fun x => point (bezier ⟨[1, 1, 2], [p0, p1, p2, p3, p4, p5, p6, p7, p8, p9, p10, p11]⟩) [u, v, x] j) w = 0 := by
  rw [deriv_112_2]
  obtain ⟨e0, e1, e2, e3, e4, e5, e6, e7⟩ := h
  simp only [e0, e1, e2, e3, e4, e5, e6, e7, mul_zero, add_zero]

end Splinepy.Tiles
