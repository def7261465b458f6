import Verif.Props.SlsqpDirection
import Mathlib.Analysis.Real.Sqrt
import Mathlib.Tactic.IntervalCases

/-!
# Cases that meet the hypotheses of the theorems about the subproblem of the fallback search

The numbers are real and the square root is that of the real numbers.
-/

namespace Splinepy.Lsq

/-- work arrays with arbitrary content -/
noncomputable def mem2 : State ℝ := ⟨fun _ _ => 7, fun _ => 0, fun _ => 0, fun _ => 0, fun _ => 0, fun _ => 0, 0, 0, .outer⟩
theorem root : Spec.SquareRoot Real.sqrt := fun x hx => ⟨Real.sqrt_nonneg x, Real.mul_self_sqrt hx⟩
theorem step_done (sqrt : ℝ → ℝ) (m n : ℕ) (s : State ℝ) (k : ℕ) (h : s.loc = .done k) : step sqrt m n s = s := by
  unfold step; rw [h]
theorem stays (sqrt : ℝ → ℝ) (m n : ℕ) (a b) (j d k : ℕ) (h : (nnls sqrt m n a b mem2 j).loc = .done k) : nnls sqrt m n a b mem2 (j + d) = nnls sqrt m n a b mem2 j := by
  induction d with
  | zero => rfl
  | succ d ih => rw [← Nat.add_assoc, nnls, ih, step_done _ _ _ _ k h]
theorem ldp_one (m n : ℕ) (hm : 0 < m) (hn : 0 < n) (g : ℕ → ℕ → ℝ) (h y : ℕ → ℝ) (hy : Spec.Feasible m n g h y) (j d : ℕ) (hj : j + d = rounds m)
    (hd : (nnls Real.sqrt (n + 1) m (dualMatrix n g h) (dualRhs n) mem2 j).loc = .done 1) : (ldp Real.sqrt m n g h mem2).1 = 1 := by
  obtain ⟨_, h2, h3⟩ := ldp_spec root m n hn g h mem2
  rcases h3 with h3 | h3 | h3
  · exact h3
  · unfold ldp at h3
    rw [if_neg (by omega), if_neg (by omega)] at h3
    simp only at h3
    rw [← hj, stays _ _ _ _ _ j d 1 hd, hd] at h3
    simp only at h3
    split_ifs at h3 <;> simp at h3
  · exact absurd hy (h2 h3 y)
theorem sqrt25 : √(25:ℝ) = 5 := by rw [show (25:ℝ) = 5^2 by norm_num]; exact Real.sqrt_sq (by norm_num)
theorem sqrt16 : √(16:ℝ) = 4 := by rw [show (16:ℝ) = 4^2 by norm_num]; exact Real.sqrt_sq (by norm_num)
set_option maxRecDepth 4000
set_option maxHeartbeats 2000000
example : (nnls Real.sqrt 2 2 (dualMatrix 1 (fun i _ => if i = 0 then 1 else -1) (fun i => if i = 0 then 3/4 else -5)) (dualRhs 1) mem2 5).loc = .done 1 := by
  norm_num [nnls, step, initial, outer, test, mem2, add, steepest, accepted, solve, limit, backward, construct, reflect, dotFrom, largest, norm2, List.range_succ, Function.update_apply,
    Finset.sum_Ico_succ_top, dualMatrix, dualRhs, sqrt25, sqrt16, List.range']
theorem lsq_active : (lsq Real.sqrt mem2 [(1, [])] [1] [-1/4] [4]).2 = 1 := by
  unfold lsq lsi
  simp only
  split_ifs with h1 h2
  · norm_num [rootFactor, rootRhs, triangularise, construct, reflect, dotFrom, largest, norm2, epmach, Function.update_apply] at h1
  · refine absurd (ldp_one 2 1 (by omega) (by omega) _ _ (fun _ => 1) ?_ 5 35 rfl ?_) h2
    · intro j hj
      interval_cases j <;>
        norm_num [rootFactor, rootRhs, boxRows, triangularise, construct, reflect, dotFrom, largest, norm2, rowTimesInverse, Function.update_apply]
    · norm_num [rootFactor, rootRhs, boxRows, triangularise, rowTimesInverse, nnls, step, initial, outer, test, mem2, add, steepest, accepted, solve, limit, backward, construct, reflect,
        dotFrom, largest, norm2, List.range_succ, Function.update_apply, Finset.sum_Ico_succ_top, dualMatrix, dualRhs, sqrt25, sqrt16, List.range']
  · rfl

/-- the minimiser of the quadratic model is `-1`, so that the bound `-1/4` is active and the result -/
example : (lsq Real.sqrt mem2 [(1, [])] [1] [-1/4] [4]).1 0 = -1/4 := by
  obtain ⟨h, _, _⟩ := lsq_spec root mem2 [(1, [])] [1] [-1/4] [4] ⟨rfl, trivial⟩ (by simp [Slsqp.Pos]) rfl rfl (by simp)
  obtain ⟨h1, h2⟩ := h lsq_active
  have h3 := h2 [-1/4] ⟨rfl, fun i hi => by
    have : i = 0 := by simpa using hi
    subst this
    norm_num⟩
  have h4 := (h1.2 0 (by simp)).1
  simp [listed, Spec.model, Slsqp.Spec.quad] at h3 h4
  nlinarith

end Splinepy.Lsq

namespace Splinepy.Slsqp

/-- one variable in `[0, 5]` -/
noncomputable def box5 : Env ℝ where
  xl := [0]
  xu := [5]
  lsq := Lsq.lsq Real.sqrt Lsq.mem2
  lsqAug := fun _ _ _ _ _ => (fun _ => 0, 0, 1)
  norm := fun v => (v.map abs).sum
  exactSearch := id
  eps := 1 / 2 ^ 52

theorem box5_solves : Solves box5 :=
  ⟨⟨rfl, by intro i hi; have : i = 0 := by simpa [box5] using hi
            subst this; simp [box5], by norm_num [box5]⟩, by simp [box5], Real.sqrt, Lsq.mem2, Lsq.root, rfl⟩

/-- work arrays with arbitrary content -/
noncomputable def mem5 : State ℝ :=
  ⟨[], 5, [], 7, 3, 9, [], [], [], [], [], 1, 1, 1, 1, 1, 1, 1, 1, 1, 1, true, 3, 4, 5, 6⟩

/-- an objective that grows to the right -/
noncomputable def slope : ℕ → ℝ × List ℝ := fun _ => (1, [3 / 4])

theorem lsq_edge : (Lsq.lsq Real.sqrt Lsq.mem2 [(1, [])] [3 / 4] [0] [5]).2 = 1 := by
  unfold Lsq.lsq Lsq.lsi
  simp only
  split_ifs with h1 h2
  · norm_num [Lsq.rootFactor, Lsq.rootRhs, Lsq.triangularise, Lsq.construct, Lsq.reflect, Lsq.dotFrom, Lsq.largest, Lsq.norm2, Lsq.epmach, Function.update_apply] at h1
  · refine absurd (Lsq.ldp_one 2 1 (by omega) (by omega) _ _ (fun _ => 1) ?_ 5 35 rfl ?_) h2
    · intro j hj
      interval_cases j <;>
        norm_num [Lsq.rootFactor, Lsq.rootRhs, Lsq.boxRows, Lsq.triangularise, Lsq.construct, Lsq.reflect, Lsq.dotFrom, Lsq.largest, Lsq.norm2, Lsq.rowTimesInverse, Function.update_apply]
    · norm_num [Lsq.rootFactor, Lsq.rootRhs, Lsq.boxRows, Lsq.triangularise, Lsq.rowTimesInverse, Lsq.nnls, Lsq.step, Lsq.initial, Lsq.outer, Lsq.test, Lsq.mem2, Lsq.add, Lsq.steepest,
        Lsq.accepted, Lsq.solve, Lsq.limit, Lsq.backward, Lsq.construct, Lsq.reflect, Lsq.dotFrom, Lsq.largest, Lsq.norm2, List.range_succ, Function.update_apply, Finset.sum_Ico_succ_top,
        Lsq.dualMatrix, Lsq.dualRhs, Lsq.sqrt25, Lsq.sqrt16, List.range']
  · rfl

theorem lsq_edge_zero : (Lsq.lsq Real.sqrt Lsq.mem2 [(1, [])] [3 / 4] [0] [5]).1 0 = 0 := by
  obtain ⟨h, _, _⟩ := Lsq.lsq_spec Lsq.root Lsq.mem2 [(1, [])] [3 / 4] [0] [5] ⟨rfl, trivial⟩ (by simp [Pos]) rfl rfl (by simp)
  obtain ⟨h1, h2⟩ := h lsq_edge
  have h3 := h2 [0] ⟨rfl, fun i hi => by
    have : i = 0 := by simpa using hi
    subst this
    norm_num⟩
  have h4 := (h1.2 0 (by simp)).1
  simp [Lsq.listed, Lsq.Spec.model, Spec.quad] at h3 h4
  nlinarith

/-- The search from the left end of the bounds ends at once and reports that this point is the solution; all hypotheses of `slsqp_reports` hold. -/
theorem edge_ends : (run box5 slope (setup [0] 1 10 mem5) 0).mode = 0 := by
  have e : ∃ s, prepare box5 (slope 0).1 (slope 0).2 (setup [0] 1 10 mem5) = s ∧ s.mode = 0 ∧ s.acc = 1 / 2 ∧ s.x = [0] ∧ s.g = [3 / 4] ∧ s.iter = 10 := by
    refine ⟨_, rfl, rfl, by norm_num [prepare, setup], ?_, rfl, rfl⟩
    norm_num [prepare, setup, bound, bound1, box5, List.range_succ]
  obtain ⟨s, h0, h1, h2, h3, h4, h5⟩ := e
  rw [run, h0]
  unfold call
  rw [if_neg (by omega), if_pos h1]
  have hl := lsq_edge
  have hz := lsq_edge_zero
  norm_num [reset, start, iteration, attempt, direction, derivative, h2, h3, h4, h5, identity, box5, axpy, dot, bound, bound1, hl, hz, List.range_succ]

example : Solves box5 ∧ (∀ k, (slope k).2.length = box5.xl.length) ∧ ¬Spec.Asks (run box5 slope (setup [0] 1 10 mem5) 0) ∧
    Spec.Stationary [0] [5] [0] [(3 / 4 : ℝ)] := by
  refine ⟨box5_solves, fun _ => rfl, by unfold Spec.Asks; rw [edge_ends]; norm_num, fun y hy => ?_⟩
  obtain ⟨a, ha⟩ := List.length_eq_one_iff.1 hy.1
  subst ha
  have := (hy.2 0 (by simp)).1
  simp [Spec.difference] at this ⊢
  linarith

end Splinepy.Slsqp
