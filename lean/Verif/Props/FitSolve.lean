import Verif.Props.Fit
import Verif.Lemma.SchoenbergWhitney
import Verif.Lemma.KnotInsertion
import Mathlib.LinearAlgebra.Matrix.ToLin
import Mathlib.LinearAlgebra.Matrix.NonsingularInverse
import Mathlib.LinearAlgebra.FiniteDimensional.Basic
import Mathlib.LinearAlgebra.Matrix.Nondegenerate
import Mathlib.Tactic.LinearCombination

set_option linter.unusedSectionVars false

/-! C34, C63, C64: solvability of the fitting problems, interpolation, least squares, surfaces. -/
namespace Splinepy.Fit

open Finset

variable {K : Type} [Field K] [LinearOrder K] [IsStrictOrderedRing K]

namespace Spec

/-- Value of basis function `j` of a clamped spline with `n` control points on `[0,1]`; at the right end the spline takes its
last control point (the last knot span is closed). -/
def value (kv : List K) (p n : ℕ) (x : K) (j : ℕ) : K :=
  if x = 1 then (if j = n - 1 then 1 else 0) else Splinepy.Spec.basis (Splinepy.Spec.knotSeq kv) p j x

/-- Spline with coefficients `c` evaluated at row `i` of the coefficient matrix. -/
def evalRow (n : ℕ) (A : ℕ → ℕ → K) (c : ℕ → K) (i : ℕ) : K := ∑ j ∈ range n, A i j * c j

/-- Sum of the squared distances to the points. -/
def cost (m n : ℕ) (A : ℕ → ℕ → K) (b c : ℕ → K) : K := ∑ i ∈ range m, (evalRow n A c i - b i) ^ 2

/-- `x` solves the normal equations `AᵀA x = Aᵀ b` (what `spsolve` and `lstsq` are asked for). -/
def NormalEq (m n : ℕ) (A : ℕ → ℕ → K) (b x : ℕ → K) : Prop :=
  ∀ j < n, ∑ i ∈ range m, A i j * (evalRow n A x i - b i) = 0

end Spec

theorem knotSeq_eq {p n : ℕ} {kv : List K} (h : Spec.IsClampedUnit p n kv) (i : ℕ) :
    Splinepy.Spec.knotSeq kv i = if i ≤ n + p then kv.getD i 0 else 1 := by
  unfold Splinepy.Spec.knotSeq
  have hl := h.length
  by_cases hi : i ≤ n + p
  · rw [if_pos hi, List.getD_eq_getElem _ _ (by omega), List.getD_eq_getElem _ _ (by omega)]
  · rw [if_neg hi, List.getD_eq_default _ _ (by omega)]
    have := h.last (n + p) (by omega) (le_refl _)
    rw [← this, List.getD_eq_getElem _ _ (by omega), List.getLastD_eq_getLast?, List.getLast?_eq_getElem?,
      List.getElem?_eq_getElem (by omega)]
    simp only [Option.getD_some]
    congr 1
    omega

theorem knotSeq_mono {p n : ℕ} {kv : List K} (h : Spec.IsClampedUnit p n kv) : Monotone (Splinepy.Spec.knotSeq kv) := by
  apply monotone_nat_of_le_succ
  intro i
  rw [knotSeq_eq h, knotSeq_eq h]
  by_cases h1 : i + 1 ≤ n + p
  · rw [if_pos (by omega), if_pos h1]; exact h.sorted i (i + 1) (by omega) (by omega)
  · rw [if_neg h1]
    by_cases h2 : i ≤ n + p
    · rw [if_pos h2]
      have := h.sorted i (n + p) h2 (by omega)
      rwa [h.last (n + p) (by omega) (le_refl _)] at this
    · rw [if_neg h2]

/-- Multiplicity of an interior value. -/
theorem clamped_mult {p n : ℕ} {kv : List K} (h : Spec.IsClampedUnit p n kv) {a : K} (h0 : 0 < a) (h1 : a < 1) :
    Boehm.mult (Splinepy.Spec.knotSeq kv) a ≤ 1 := by
  unfold Boehm.mult
  have hm := knotSeq_mono h
  have hrange : ∀ k, Splinepy.Spec.knotSeq kv k = a → p < k ∧ k < n := by
    intro k hk
    rw [knotSeq_eq h] at hk
    split at hk
    · constructor
      · by_contra hc
        rw [h.first k (by omega)] at hk
        linarith
      · by_contra hc
        rw [h.last k (by omega) (by omega)] at hk
        linarith
    · linarith
  have hstrict : ∀ k l, k < l → Splinepy.Spec.knotSeq kv k = a → Splinepy.Spec.knotSeq kv l = a → False := by
    intro k l hkl hk hl
    have hk' := hrange k hk
    have hl' := hrange l hl
    have h3 := h.strict k hk'.1 (by omega)
    have h4 := hm (show k + 1 ≤ l by omega)
    rw [hl, knotSeq_eq h, if_pos (by omega)] at h4
    rw [knotSeq_eq h, if_pos (by omega)] at hk
    linarith
  apply Set.ncard_le_one_iff (Boehm.finite_level hm ⟨n + p, by
    rw [knotSeq_eq h, if_pos (le_refl _), h.last _ (by omega) (le_refl _)]; exact h1⟩) |>.2
  intro k l hk hl
  by_contra hne
  rcases Nat.lt_or_gt_of_ne hne with hlt | hlt
  · exact hstrict k l hlt hk hl
  · exact hstrict l k hlt hl hk

/-- At the left end the spline takes its first control point. -/
theorem value_zero {p n : ℕ} {kv : List K} (h : Spec.IsClampedUnit p n kv) (hn : p < n) (j : ℕ) :
    Spec.value kv p n 0 j = if j = 0 then 1 else 0 := by
  unfold Spec.value
  rw [if_neg zero_ne_one]
  have hz : ∀ k ≤ p, Splinepy.Spec.knotSeq kv k = 0 := by
    intro k hk
    rw [knotSeq_eq h, if_pos (by omega), h.first k hk]
  have hpos : (0 : K) < Splinepy.Spec.knotSeq kv (p + 1) := by
    rw [knotSeq_eq h, if_pos (by omega)]
    by_cases hc : p + 1 < n
    · exact (h.inside _ (by omega) hc).1
    · rw [h.last _ (by omega) (by omega)]; exact zero_lt_one
  rw [Blossom.basis_eq_bl (knotSeq_mono h) (μ := p) ⟨(hz p (le_refl _)).le, hpos⟩]
  have := Blossom.bl_const_right (t := Splinepy.Spec.knotSeq kv) (μ := 0) (m := p) (a := 0)
    (by rw [Nat.zero_add]; exact hpos) (fun k _ hk => by rw [Nat.zero_add]; exact hz k hk) p (le_refl _)
  rw [Nat.zero_add] at this
  rw [this]
  dsimp only
  by_cases hj : j = 0
  · rw [if_pos (by omega), if_pos hj]
  · rw [if_neg (by omega), if_neg hj]

/-- C34: with a clamped knot vector and parameters satisfying the Schoenberg–Whitney condition, only the zero spline vanishes at
all parameters: interpolation is uniquely solvable, and the normal equations of an approximation are regular. -/
theorem collocation_injective {p n m : ℕ} (hp : 1 ≤ p) (hn : p < n) (hnm : n ≤ m) {kv : List K}
    (hkv : Spec.IsClampedUnit p n kv) (u : ℕ → K) (hu : ∀ i j, i < j → j < m → u i < u j) (h0 : u 0 = 0)
    (h1 : u (m - 1) = 1) (hsw : Spec.SchoenbergWhitney p n m kv u) (c : ℕ → K)
    (hc : ∀ i < m, Spec.evalRow n (fun i => Spec.value kv p n (u i)) c i = 0) : ∀ j < n, c j = 0 := by
  have hc0 : c 0 = 0 := by
    have := hc 0 (by omega)
    unfold Spec.evalRow at this
    dsimp only at this
    rw [Finset.sum_eq_single 0] at this
    · rwa [h0, value_zero hkv hn, if_pos rfl, one_mul] at this
    · intro j _ hj
      rw [h0, value_zero hkv hn, if_neg hj, zero_mul]
    · intro h; exact absurd (mem_range.2 (by omega)) h
  have hcn : c (n - 1) = 0 := by
    have := hc (m - 1) (by omega)
    unfold Spec.evalRow Spec.value at this
    dsimp only at this
    rw [Finset.sum_eq_single (n - 1)] at this
    · rwa [if_pos h1, if_pos rfl, one_mul] at this
    · intro j _ hj
      rw [if_pos h1, if_neg hj, zero_mul]
    · intro h; exact absurd (mem_range.2 (by omega)) h
  obtain ⟨s, hs0, hsn, hs, hin⟩ := hsw
  have hsm : ∀ k, k < n → s k ≤ m - 1 := by
    intro k hk
    rcases Nat.lt_or_ge k (n - 1) with h | h
    · have := hs k (n - 1) h (by omega); omega
    · have : k = n - 1 := by omega
      rw [this, hsn]
  have hpts : ∀ k, 0 < k → k < n - 1 → 0 < u (s k) ∧ u (s k) < 1 := by
    intro k hk1 hk2
    have a1 := hs 0 k hk1 (by omega)
    have a2 := hs k (n - 1) hk2 (by omega)
    rw [hs0] at a1
    rw [hsn] at a2
    constructor
    · have := hu 0 (s k) a1 (by omega); rwa [h0] at this
    · have := hu (s k) (m - 1) a2 (by omega); rwa [h1] at this
  have hxm : StrictMono (fun i : Fin (n - 2) => u (s (i.val + 1))) := by
    intro a b hab
    have hb := b.isLt
    exact hu _ _ (hs _ _ (by have : a.val < b.val := hab; omega) (by omega)) (by have := hsm (b.val + 1) (by omega); omega)
  have hdet := Boehm.schoenberg_whitney (t := Splinepy.Spec.knotSeq kv) (knotSeq_mono hkv) hp hxm
    (fun i => by
      rw [knotSeq_eq hkv, if_pos (by omega), hkv.first 0 (by omega)]
      exact (hpts _ (by omega) (by omega)).1)
    (fun i => ⟨n + p, by
      rw [knotSeq_eq hkv, if_pos (le_refl _), hkv.last _ (by omega) (le_refl _)]
      exact (hpts _ (by omega) (by omega)).2⟩)
    (fun i => (clamped_mult hkv (hpts _ (by omega) (by omega)).1 (hpts _ (by omega) (by omega)).2).trans hp)
    (fun i : Fin (n - 2) => i.val + 1) (fun a b hab => by have : a.val < b.val := hab; dsimp only; omega)
    (fun i => by
      have := hin (i.val + 1) (by omega) (by omega)
      dsimp only
      rw [knotSeq_eq hkv, knotSeq_eq hkv, if_pos (by omega), if_pos (by omega)]
      exact this)
  have hv : (fun l : Fin (n - 2) => c (l.val + 1)) = 0 := by
    refine Matrix.eq_zero_of_vecMul_eq_zero (ne_of_gt hdet) ?_
    funext i
    simp only [Matrix.vecMul, dotProduct, Pi.zero_apply, Boehm.colloc, Matrix.of_apply]
    have hrow := hc (s (i.val + 1)) (by have := hsm (i.val + 1) (by omega); omega)
    unfold Spec.evalRow at hrow
    have hn2 : n = (n - 2) + 1 + 1 := by omega
    rw [show range n = range ((n - 2) + 1 + 1) from congrArg range hn2, Finset.sum_range_succ, Finset.sum_range_succ', hc0,
      show n - 2 + 1 = n - 1 by omega, hcn, mul_zero, mul_zero, add_zero, add_zero] at hrow
    dsimp only at hrow
    rw [Finset.sum_range] at hrow
    refine Eq.trans (Finset.sum_congr rfl ?_) hrow
    intro l _
    rw [mul_comm]
    congr 1
    unfold Spec.value
    rw [if_neg (ne_of_lt (hpts (i.val + 1) (by omega) (by omega)).2)]
  intro j hj
  rcases Nat.eq_zero_or_pos j with h | h
  · rw [h, hc0]
  · rcases Nat.lt_or_ge j (n - 1) with h' | h'
    · have := congrFun hv ⟨j - 1, by omega⟩
      simp only [Pi.zero_apply] at this
      rwa [show j - 1 + 1 = j by omega] at this
    · have : j = n - 1 := by omega
      rw [this, hcn]

/-- C34: `fit.curve` and each direction of `fit.surface`, end to end: for points with different neighbours, the chosen degree and
knot vector make the fitting problem uniquely solvable. -/
theorem fit_solvable (p m : ℕ) (nCps : Option ℕ) (hp : 1 ≤ p) (hn : p < nCps.getD m) (hm : nCps.getD m ≤ m)
    (lines : List (List K)) (hne : lines ≠ []) (hlen : ∀ l ∈ lines, l.length = m - 1)
    (hpos : ∀ l ∈ lines, ∀ c ∈ l, 0 < c) :
    ∃ kv, prepareDefault m (some p) (nCps.map fun n => (n : ℤ)) none (surfaceParams m lines) = some (p, kv) ∧
      ∀ c : ℕ → K, (∀ i < m, Spec.evalRow (nCps.getD m)
          (fun i => Spec.value kv p (nCps.getD m) ((surfaceParams m lines).getD i 0)) c i = 0) →
        ∀ j < nCps.getD m, c j = 0 := by
  obtain ⟨kv, h1, h2, h3⟩ := fit_knots p m nCps hp hn hm lines hne hlen hpos
  obtain ⟨_, g0, g1, g2⟩ := params_increasing m lines hne (by omega) hlen hpos
  exact ⟨kv, h1, fun c hc => collocation_injective hp hn hm h2 _ g2 g0 g1 h3 c hc⟩

/-! ### Least squares -/

theorem evalRow_sub (n : ℕ) (A : ℕ → ℕ → K) (x y : ℕ → K) (i : ℕ) :
    Spec.evalRow n A (fun j => y j - x j) i = Spec.evalRow n A y i - Spec.evalRow n A x i := by
  unfold Spec.evalRow
  rw [← Finset.sum_sub_distrib]
  exact Finset.sum_congr rfl fun j _ => by ring

theorem cost_split (m n : ℕ) (A : ℕ → ℕ → K) (b x y : ℕ → K) (h : Spec.NormalEq m n A b x) :
    Spec.cost m n A b y = Spec.cost m n A b x + ∑ i ∈ range m, (Spec.evalRow n A (fun j => y j - x j) i) ^ 2 := by
  have hcross : ∑ i ∈ range m, (Spec.evalRow n A x i - b i) * Spec.evalRow n A (fun j => y j - x j) i = 0 := by
    have e : ∀ i, (Spec.evalRow n A x i - b i) * Spec.evalRow n A (fun j => y j - x j) i =
        ∑ j ∈ range n, (y j - x j) * (A i j * (Spec.evalRow n A x i - b i)) := by
      intro i
      rw [show Spec.evalRow n A (fun j => y j - x j) i = ∑ j ∈ range n, A i j * (y j - x j) from rfl, Finset.mul_sum]
      exact Finset.sum_congr rfl fun j _ => by ring
    simp only [e]
    rw [Finset.sum_comm]
    apply Finset.sum_eq_zero
    intro j hj
    rw [← Finset.mul_sum, h j (mem_range.1 hj), mul_zero]
  unfold Spec.cost
  have : ∀ i, (Spec.evalRow n A y i - b i) ^ 2 = (Spec.evalRow n A x i - b i) ^ 2 +
      (Spec.evalRow n A (fun j => y j - x j) i) ^ 2 +
      2 * ((Spec.evalRow n A x i - b i) * Spec.evalRow n A (fun j => y j - x j) i) := by
    intro i
    rw [evalRow_sub]
    ring
  simp only [this]
  rw [Finset.sum_add_distrib, Finset.sum_add_distrib, ← Finset.mul_sum, hcross, mul_zero, add_zero]

/-- A solution of the normal equations minimises the cost. -/
theorem normal_minimises (m n : ℕ) (A : ℕ → ℕ → K) (b x y : ℕ → K) (h : Spec.NormalEq m n A b x) :
    Spec.cost m n A b x ≤ Spec.cost m n A b y := by
  rw [cost_split m n A b x y h]
  have := Finset.sum_nonneg (s := range m) (f := fun i => (Spec.evalRow n A (fun j => y j - x j) i) ^ 2)
    (fun i _ => sq_nonneg _)
  linarith

/-- Square regular systems reach cost zero. -/
theorem exists_solution (n : ℕ) (A : ℕ → ℕ → K) (b : ℕ → K)
    (hinj : ∀ c : ℕ → K, (∀ i < n, Spec.evalRow n A c i = 0) → ∀ j < n, c j = 0) :
    ∃ y, ∀ i < n, Spec.evalRow n A y i = b i := by
  let M : Matrix (Fin n) (Fin n) K := Matrix.of fun i j => A i j
  have hM : Function.Injective M.mulVecLin := by
    rw [injective_iff_map_eq_zero]
    intro v hv
    have := hinj (fun j => if h : j < n then v ⟨j, h⟩ else 0) (fun i hi => by
      have := congrFun hv ⟨i, hi⟩
      simp only [Matrix.mulVecLin_apply, Matrix.mulVec, dotProduct, Pi.zero_apply, M, Matrix.of_apply] at this
      unfold Spec.evalRow
      rw [Finset.sum_range]
      refine Eq.trans (Finset.sum_congr rfl ?_) this
      intro j _
      dsimp only
      rw [dif_pos j.isLt])
    funext j
    have hj := this j j.isLt
    rwa [dif_pos j.isLt] at hj
  obtain ⟨v, hv⟩ := (LinearMap.injective_iff_surjective.1 hM) (fun i => b i)
  refine ⟨fun j => if h : j < n then v ⟨j, h⟩ else 0, fun i hi => ?_⟩
  have := congrFun hv ⟨i, hi⟩
  simp only [Matrix.mulVecLin_apply, Matrix.mulVec, dotProduct, M, Matrix.of_apply] at this
  unfold Spec.evalRow
  rw [Finset.sum_range, ← this]
  apply Finset.sum_congr rfl
  intro j _
  dsimp only
  rw [dif_pos j.isLt]

/-- C63: as many control points as points: the fitted spline passes through every point (whatever `interpolate_endpoints`). -/
theorem fit_interpolates (solver : Solver K) (n : ℕ) (A : ℕ → ℕ → K) (b old : ℕ → K) (e : Bool)
    (hinj : ∀ c : ℕ → K, (∀ i < n, Spec.evalRow n A c i = 0) → ∀ j < n, c j = 0)
    (hs : Spec.NormalEq n n A b (solver n n A b)) :
    ∀ i < n, Spec.evalRow n A (solveControlPoints solver n n A b old e) i = b i := by
  have he : solveControlPoints solver n n A b old e = solver n n A b := by
    unfold solveControlPoints
    rw [if_neg (by simp)]
  rw [he]
  obtain ⟨y, hy⟩ := exists_solution n A b hinj
  have h0 : Spec.cost n n A b y = 0 := by
    unfold Spec.cost
    apply Finset.sum_eq_zero
    intro i hi
    rw [hy i (mem_range.1 hi), sub_self]
    ring
  have hle := normal_minimises n n A b _ y hs
  rw [h0] at hle
  intro i hi
  have hz := Finset.sum_eq_zero_iff_of_nonneg (s := range n)
    (f := fun i => (Spec.evalRow n A (solver n n A b) i - b i) ^ 2) (fun i _ => sq_nonneg _) |>.1
    (le_antisymm hle (Finset.sum_nonneg fun i _ => sq_nonneg _)) i (mem_range.2 hi)
  have := pow_eq_zero_iff (two_ne_zero) |>.1 hz
  linarith

theorem evalRow_ends (n' : ℕ) (A : ℕ → ℕ → K) (c : ℕ → K) (i : ℕ) :
    Spec.evalRow (n' + 2) A c i = A i 0 * c 0 + Spec.evalRow n' (fun i j => A i (j + 1)) (fun j => c (j + 1)) i +
      A i (n' + 1) * c (n' + 1) := by
  unfold Spec.evalRow
  rw [Finset.sum_range_succ, Finset.sum_range_succ']
  ring

/-- C63: `interpolate_endpoints` with fewer control points than points: the fitted spline starts in the first and ends in the last
point, and among all splines that do so it minimises the sum of squared distances. -/
theorem fit_endpoints (solver : Solver K) (m n : ℕ) (hn : 2 ≤ n) (hnm : n < m) (A : ℕ → ℕ → K) (b old : ℕ → K)
    (hfirst : ∀ j < n, A 0 j = if j = 0 then 1 else 0) (hlast : ∀ j < n, A (m - 1) j = if j = n - 1 then 1 else 0)
    (hs : Spec.NormalEq (m - 2) (n - 2) (fun i j => A (i + 1) (j + 1))
      (fun i => b (i + 1) - (A (i + 1) 0 * b 0 + A (i + 1) (n - 1) * b (m - 1)))
      (solver (m - 2) (n - 2) (fun i j => A (i + 1) (j + 1))
        (fun i => b (i + 1) - (A (i + 1) 0 * b 0 + A (i + 1) (n - 1) * b (m - 1))))) :
    Spec.evalRow n A (solveControlPoints solver m n A b old true) 0 = b 0 ∧
    Spec.evalRow n A (solveControlPoints solver m n A b old true) (m - 1) = b (m - 1) ∧
    ∀ y : ℕ → K, Spec.evalRow n A y 0 = b 0 → Spec.evalRow n A y (m - 1) = b (m - 1) →
      Spec.cost m n A b (solveControlPoints solver m n A b old true) ≤ Spec.cost m n A b y := by
  obtain ⟨n', rfl⟩ : ∃ n', n = n' + 2 := ⟨n - 2, by omega⟩
  obtain ⟨m', rfl⟩ : ∃ m', m = m' + 2 := ⟨m - 2, by omega⟩
  rw [show m' + 2 - 1 = m' + 1 by omega] at *
  rw [show n' + 2 - 1 = n' + 1 by omega] at *
  simp only [Nat.add_sub_cancel] at hs
  have hrow0 : ∀ c : ℕ → K, Spec.evalRow (n' + 2) A c 0 = c 0 := by
    intro c
    unfold Spec.evalRow
    rw [Finset.sum_eq_single 0]
    · rw [hfirst 0 (by omega), if_pos rfl, one_mul]
    · intro j hj hj0
      rw [hfirst j (mem_range.1 hj), if_neg hj0, zero_mul]
    · intro h; exact absurd (mem_range.2 (by omega)) h
  have hrowm : ∀ c : ℕ → K, Spec.evalRow (n' + 2) A c (m' + 1) = c (n' + 1) := by
    intro c
    unfold Spec.evalRow
    rw [Finset.sum_eq_single (n' + 1)]
    · rw [hlast _ (by omega), if_pos rfl, one_mul]
    · intro j hj hj0
      rw [hlast j (mem_range.1 hj), if_neg hj0, zero_mul]
    · intro h; exact absurd (mem_range.2 (by omega)) h
  generalize hx : solver m' n' (fun i j => A (i + 1) (j + 1))
        (fun i => b (i + 1) - (A (i + 1) 0 * b 0 + A (i + 1) (n' + 1) * b (m' + 1))) = x at hs
  have hz : solveControlPoints solver (m' + 2) (n' + 2) A b old true 0 = b 0 ∧
      solveControlPoints solver (m' + 2) (n' + 2) A b old true (n' + 1) = b (m' + 1) ∧
      ∀ j < n', solveControlPoints solver (m' + 2) (n' + 2) A b old true (j + 1) = x j := by
    unfold solveControlPoints
    rw [if_pos ⟨rfl, by omega⟩, show m' + 2 - 1 = m' + 1 by omega, show n' + 2 - 1 = n' + 1 by omega]
    simp only [Nat.add_sub_cancel]
    rw [hx]
    by_cases h2 : n' + 2 = 2
    · obtain rfl : n' = 0 := by omega
      rw [if_pos rfl]
      refine ⟨?_, ?_, fun j hj => absurd hj (by omega)⟩
      · rw [Function.update_of_ne (by omega), Function.update_self]
      · rw [Function.update_self]
    · rw [if_neg h2]
      refine ⟨?_, ?_, fun j hj => ?_⟩
      · rw [if_neg (by omega), Function.update_of_ne (by omega), Function.update_self]
      · rw [if_neg (by omega), Function.update_self]
      · rw [if_pos ⟨by omega, by omega⟩, Nat.add_sub_cancel]
  obtain ⟨hz0, hzn, hzi⟩ := hz
  generalize solveControlPoints solver (m' + 2) (n' + 2) A b old true = z at hz0 hzn hzi
  rw [hrow0, hrowm]
  refine ⟨hz0, hzn, fun y hy0 hym => ?_⟩
  rw [hrow0] at hy0
  rw [hrowm] at hym
  have hcost : ∀ c : ℕ → K, c 0 = b 0 → c (n' + 1) = b (m' + 1) →
      Spec.cost (m' + 2) (n' + 2) A b c = Spec.cost m' n' (fun i j => A (i + 1) (j + 1))
        (fun i => b (i + 1) - (A (i + 1) 0 * b 0 + A (i + 1) (n' + 1) * b (m' + 1))) (fun j => c (j + 1)) := by
    intro c c0 cn
    unfold Spec.cost
    rw [Finset.sum_range_succ, Finset.sum_range_succ', hrow0, hrowm, c0, cn, sub_self, sub_self]
    simp only [ne_eq, OfNat.ofNat_ne_zero, not_false_eq_true, zero_pow, add_zero]
    apply Finset.sum_congr rfl
    intro i _
    rw [evalRow_ends, c0, cn]
    have : Spec.evalRow n' (fun i j => A i (j + 1)) (fun j => c (j + 1)) (i + 1) =
        Spec.evalRow n' (fun i j => A (i + 1) (j + 1)) (fun j => c (j + 1)) i := rfl
    rw [this]
    ring
  rw [hcost z hz0 hzn, hcost y hy0 hym]
  have e : Spec.cost m' n' (fun i j => A (i + 1) (j + 1))
        (fun i => b (i + 1) - (A (i + 1) 0 * b 0 + A (i + 1) (n' + 1) * b (m' + 1))) (fun j => z (j + 1)) =
      Spec.cost m' n' (fun i j => A (i + 1) (j + 1))
        (fun i => b (i + 1) - (A (i + 1) 0 * b 0 + A (i + 1) (n' + 1) * b (m' + 1))) x := by
    unfold Spec.cost
    apply Finset.sum_congr rfl
    intro i _
    congr 2
    unfold Spec.evalRow
    apply Finset.sum_congr rfl
    intro j hj
    dsimp only
    rw [hzi j (mem_range.1 hj)]
  rw [e]
  exact normal_minimises _ _ _ _ _ _ hs

/-- C63: without `interpolate_endpoints` the fitted spline minimises the sum of squared distances among all splines. -/
theorem fit_minimises (solver : Solver K) (m n : ℕ) (A : ℕ → ℕ → K) (b old y : ℕ → K)
    (hs : Spec.NormalEq m n A b (solver m n A b)) :
    Spec.cost m n A b (solveControlPoints solver m n A b old false) ≤ Spec.cost m n A b y := by
  have : solveControlPoints solver m n A b old false = solver m n A b := by
    unfold solveControlPoints
    rw [if_neg (by simp)]
  rw [this]
  exact normal_minimises _ _ _ _ _ _ hs

/-- C63, end to end: `fit.curve` with as many control points as points (any degree below that number), applied to points whose
neighbours differ: whatever solution of the normal equations the solver returns, the curve passes through every point. -/
theorem fit_curve_interpolates (solver : Solver K) (p : ℕ) (chords : List K) (hp : 1 ≤ p) (hn : p < chords.length + 1)
    (hpos : ∀ c ∈ chords, 0 < c) (b old : ℕ → K) (e : Bool) :
    ∃ kv, curveSpline (chords.length + 1) (some p) none none none (lineParams chords) = some (p, kv) ∧
      ∀ A, A = (fun i => Spec.value kv p (chords.length + 1) ((lineParams chords).getD i 0)) →
        Spec.NormalEq (chords.length + 1) (chords.length + 1) A b (solver (chords.length + 1) (chords.length + 1) A b) →
        ∀ i < chords.length + 1, Spec.evalRow (chords.length + 1) A
          (solveControlPoints solver (chords.length + 1) (chords.length + 1) A b old e) i = b i := by
  have h := fit_solvable p (chords.length + 1) none hp hn (le_refl _) [chords] (by simp) (by simp) (by simpa using hpos)
  rw [← lineParams_eq] at h
  obtain ⟨kv, h1, h2⟩ := h
  refine ⟨kv, h1, fun A hA hs i hi => ?_⟩
  subst hA
  exact fit_interpolates solver _ _ b old e h2 hs i hi

/-- C63, end to end: `fit.curve` with fewer control points than points and `interpolate_endpoints`: the curve starts in the first
point, ends in the last one, and no curve of the same degree and knot vector that does so is closer to the points. -/
theorem fit_curve_endpoints (solver : Solver K) (p n : ℕ) (chords : List K) (hp : 1 ≤ p) (hpn : p < n)
    (hn : n < chords.length + 1) (hpos : ∀ c ∈ chords, 0 < c) (b old : ℕ → K)
    (hs : ∀ r c A b, Spec.NormalEq r c A b (solver r c A b)) :
    ∃ kv, curveSpline (chords.length + 1) (some p) (some n) none none (lineParams chords) = some (p, kv) ∧
      ∀ A, A = (fun i => Spec.value kv p n ((lineParams chords).getD i 0)) →
      ∀ x, x = solveControlPoints solver (chords.length + 1) n A b old true →
        Spec.evalRow n A x 0 = b 0 ∧ Spec.evalRow n A x chords.length = b chords.length ∧
        ∀ y : ℕ → K, Spec.evalRow n A y 0 = b 0 → Spec.evalRow n A y chords.length = b chords.length →
          Spec.cost (chords.length + 1) n A b x ≤ Spec.cost (chords.length + 1) n A b y := by
  obtain ⟨kv, h1, h2, _⟩ := fit_curve_knots p (some n) chords hp hpn hn.le hpos
  have hpar := params_increasing (chords.length + 1) [chords] (by simp) (by omega) (by simp) (by simpa using hpos)
  rw [← lineParams_eq] at hpar
  obtain ⟨_, g0, g1, _⟩ := hpar
  refine ⟨kv, h1, fun A hA x hx => ?_⟩
  subst hA hx
  exact fit_endpoints solver (chords.length + 1) n (by omega) hn _ b old
    (fun j _ => by rw [g0]; exact value_zero h2 hpn j)
    (fun j _ => by
      rw [show chords.length + 1 - 1 = chords.length by omega] at *
      rw [g1]; exact if_pos rfl) (hs _ _ _ _)

/-- The contract of the solver can be met: a regular system has a solution of its normal equations. -/
example : Spec.NormalEq (K := ℚ) 3 2 (fun i j => if j = 0 then 1 else (i : ℚ)) (fun i => (i : ℚ) ^ 2)
    (fun j => if j = 0 then -1/3 else 2) := by
  intro j hj
  rcases j with _ | _ | j
  · simp [Finset.sum_range_succ, Spec.evalRow]; norm_num
  · simp [Finset.sum_range_succ, Spec.evalRow]; norm_num
  · omega

/-! ### Surfaces -/

theorem scatter_length {P : Type} (a : List P) (ids : List ℕ) (vs : List P) : (scatter a ids vs).length = a.length := by
  unfold scatter
  generalize ids.zip vs = l
  induction l generalizing a with
  | nil => rfl
  | cons x l ih => rw [List.foldl_cons, ih, List.length_set]

theorem foldl_set_getD {P : Type} (l : List (ℕ × P)) (a : List P) (k : ℕ) (z : P) (hk : k ∉ l.map Prod.fst) :
    (l.foldl (fun a iv => a.set iv.1 iv.2) a).getD k z = a.getD k z := by
  induction l generalizing a with
  | nil => rfl
  | cons x l ih =>
    simp only [List.map_cons, List.mem_cons, not_or] at hk
    rw [List.foldl_cons, ih _ hk.2, List.getD_eq_getElem?_getD, List.getElem?_set_ne (Ne.symm hk.1),
      ← List.getD_eq_getElem?_getD]

/-- Assignment at distinct positions `f 0, …, f (n-1)`. -/
theorem scatter_range {P : Type} (a vs : List P) (n : ℕ) (f : ℕ → ℕ) (hf : ∀ i j, i < n → j < n → f i = f j → i = j)
    (hv : vs.length = n) (hlen : ∀ i < n, f i < a.length) (z : P) :
    (∀ i < n, (scatter a ((List.range n).map f) vs).getD (f i) z = vs.getD i z) ∧
    ∀ k, (∀ i < n, k ≠ f i) → (scatter a ((List.range n).map f) vs).getD k z = a.getD k z := by
  constructor
  · induction n generalizing vs with
    | zero => intro i hi; omega
    | succ n ih =>
      intro i hi
      obtain ⟨vs', v, rfl⟩ : ∃ vs' v, vs = vs' ++ [v] := by
        rcases List.eq_nil_or_concat vs with h | ⟨l, b, h⟩
        · subst h; simp at hv
        · exact ⟨l, b, by rw [h, List.concat_eq_append]⟩
      have hv' : vs'.length = n := by simpa using hv
      have hz : ((List.range (n + 1)).map f).zip (vs' ++ [v]) = ((List.range n).map f).zip vs' ++ [(f n, v)] := by
        rw [List.range_succ, List.map_append, List.zip_append (by simp [hv'])]
        rfl
      have hsc : scatter a ((List.range (n + 1)).map f) (vs' ++ [v]) =
          (scatter a ((List.range n).map f) vs').set (f n) v := by
        unfold scatter
        rw [hz, List.foldl_append]
        rfl
      rw [hsc]
      by_cases hin : i = n
      · subst hin
        rw [List.getD_eq_getElem?_getD, List.getElem?_set_self (by rw [scatter_length]; exact hlen i hi),
          List.getD_eq_getElem?_getD, List.getElem?_append_right (by omega)]
        simp [hv']
      · rw [List.getD_eq_getElem?_getD, List.getElem?_set_ne (by
          intro h; exact hin (hf _ _ hi (by omega) h.symm)), ← List.getD_eq_getElem?_getD,
          ih vs' (fun i j hi hj => hf i j (by omega) (by omega)) hv' (fun i hi => hlen i (by omega)) i (by omega)]
        rw [List.getD_eq_getElem?_getD, List.getD_eq_getElem?_getD, List.getElem?_append_left (by omega)]
  · intro k hk
    unfold scatter
    rw [foldl_set_getD]
    intro hmem
    obtain ⟨x, hx, rfl⟩ := List.mem_map.1 hmem
    have := (List.of_mem_zip hx).1
    obtain ⟨i, hi, hi2⟩ := List.mem_map.1 this
    exact hk i (List.mem_range.1 hi) hi2.symm

theorem grid_inj {a i j i' j' : ℕ} (hi : i < a) (hi' : i' < a) (h : i + a * j = i' + a * j') : i = i' ∧ j = j' := by
  have h1 : (i + a * j) % a = (i' + a * j') % a := by rw [h]
  rw [Nat.add_mul_mod_self_left, Nat.add_mul_mod_self_left, Nat.mod_eq_of_lt hi, Nat.mod_eq_of_lt hi'] at h1
  subst h1
  exact ⟨rfl, Nat.eq_of_mul_eq_mul_left (by omega) (by omega : a * j = a * j')⟩

theorem grid_lt {a b i j : ℕ} (hi : i < a) (hj : j < b) : i + a * j < a * b := by
  have : a * (j + 1) ≤ a * b := Nat.mul_le_mul_left a hj
  rw [Nat.mul_add, Nat.mul_one] at this
  omega

theorem flatMap_column (n0 n1 : ℕ) : ((List.range n1).flatMap fun v => column n0 n0 v) = List.range (n0 * n1) := by
  induction n1 with
  | zero => simp
  | succ n1 ih =>
    rw [List.range_succ, List.flatMap_append, ih, Nat.mul_succ, List.range_add]
    congr 1
    unfold column
    simp only [List.flatMap_cons, List.flatMap_nil, List.append_nil]
    exact List.map_congr_left fun i _ => by omega

/-- C64: the control points of a fitted surface: first every column `v` of the points is fitted along the first direction, then
every row of the result along the second direction; control point `(i, j)` is number `i + n₀ j`, and no line overwrites
another one. -/
theorem surface_control_points {P : Type} (fitU fitV : List P → List P) (s0 s1 n0 n1 : ℕ) (points init : List P) (z : P)
    (hU : ∀ l, l.length = s0 → (fitU l).length = n0) (hV : ∀ l, l.length = s1 → (fitV l).length = n1) (hn1 : n1 ≤ s1)
    (hinit : init.length = n0 * s1) :
    (surface fitU fitV s0 s1 n0 n1 points init z).length = n0 * n1 ∧
    ∀ i < n0, ∀ j < n1, (surface fitU fitV s0 s1 n0 n1 points init z).getD (i + n0 * j) z =
      (fitV ((List.range s1).map fun v =>
        (fitU ((List.range s0).map fun a => points.getD (a + s0 * v) z)).getD i z)).getD j z := by
  have hg : ∀ (pts : List P) (a n v : ℕ), gather pts (column a n v) z = (List.range n).map fun i => pts.getD (i + a * v) z := by
    intro pts a n v
    unfold gather column
    rw [List.map_map]
    rfl
  have hg' : ∀ (pts : List P) (a n u : ℕ), gather pts (rowIds a n u) z = (List.range n).map fun v => pts.getD (u + a * v) z := by
    intro pts a n u
    unfold gather rowIds
    rw [List.map_map]
    rfl
  -- first loop
  have h1 : ∀ m, m ≤ s1 → ((List.range m).foldl
      (fun a v => scatter a (column n0 n0 v) (fitU (gather points (column s0 s0 v) z))) init).length = n0 * s1 ∧
      ∀ i < n0, ∀ v < m, ((List.range m).foldl
        (fun a v => scatter a (column n0 n0 v) (fitU (gather points (column s0 s0 v) z))) init).getD (i + n0 * v) z =
        (fitU ((List.range s0).map fun a => points.getD (a + s0 * v) z)).getD i z := by
    intro m
    induction m with
    | zero => intro _; exact ⟨hinit, fun i _ v hv => absurd hv (by omega)⟩
    | succ m ih =>
      intro hm
      obtain ⟨il, iv⟩ := ih (by omega)
      rw [List.range_succ, List.foldl_append, List.foldl_cons, List.foldl_nil]
      generalize (List.range m).foldl
        (fun a v => scatter a (column n0 n0 v) (fitU (gather points (column s0 s0 v) z))) init = A at il iv
      rw [hg]
      have hsc := scatter_range A (fitU ((List.range s0).map fun a => points.getD (a + s0 * m) z)) n0 (fun i => i + n0 * m)
        (fun i j _ _ h => by omega) (hU _ (by simp)) (fun i hi => by
          rw [il]; exact grid_lt hi (by omega)) z
      refine ⟨by rw [scatter_length, il], fun i hi v hv => ?_⟩
      by_cases hvm : v = m
      · subst hvm
        exact hsc.1 i hi
      · refine Eq.trans (hsc.2 (i + n0 * v) ?_) (iv i hi v (by omega))
        intro i' hi' h
        exact hvm (grid_inj hi hi' h).2
  obtain ⟨hl1, hv1⟩ := h1 s1 (le_refl _)
  unfold surface
  dsimp only
  generalize (List.range s1).foldl
    (fun a v => scatter a (column n0 n0 v) (fitU (gather points (column s0 s0 v) z))) init = A at hl1 hv1
  -- second loop
  have h2 : ∀ m, m ≤ n0 → ((List.range m).foldl
      (fun a u => scatter a (rowIds n0 n1 u) (fitV (gather a (rowIds n0 s1 u) z))) A).length = n0 * s1 ∧
      (∀ i < m, ∀ j < n1, ((List.range m).foldl
        (fun a u => scatter a (rowIds n0 n1 u) (fitV (gather a (rowIds n0 s1 u) z))) A).getD (i + n0 * j) z =
        (fitV ((List.range s1).map fun v => A.getD (i + n0 * v) z)).getD j z) ∧
      ∀ i, m ≤ i → i < n0 → ∀ v, ((List.range m).foldl
        (fun a u => scatter a (rowIds n0 n1 u) (fitV (gather a (rowIds n0 s1 u) z))) A).getD (i + n0 * v) z =
        A.getD (i + n0 * v) z := by
    intro m
    induction m with
    | zero => intro _; exact ⟨hl1, fun i hi => absurd hi (by omega), fun i _ _ v => rfl⟩
    | succ m ih =>
      intro hm
      obtain ⟨il, iv, ir⟩ := ih (by omega)
      rw [List.range_succ, List.foldl_append, List.foldl_cons, List.foldl_nil]
      generalize (List.range m).foldl
        (fun a u => scatter a (rowIds n0 n1 u) (fitV (gather a (rowIds n0 s1 u) z))) A = B at il iv ir
      rw [hg']
      have e : ((List.range s1).map fun v => B.getD (m + n0 * v) z) = (List.range s1).map fun v => A.getD (m + n0 * v) z :=
        List.map_congr_left fun v _ => ir m (le_refl _) (by omega) v
      rw [e]
      have hsc := scatter_range B (fitV ((List.range s1).map fun v => A.getD (m + n0 * v) z)) n1 (fun v => m + n0 * v)
        (fun i j _ _ h => by exact (grid_inj (by omega) (by omega) h).2) (hV _ (by simp)) (fun j hj => by
          rw [il]; exact grid_lt (by omega) (by omega)) z
      refine ⟨by rw [scatter_length, il], fun i hi j hj => ?_, fun i hi1 hi2 v => ?_⟩
      · by_cases him : i = m
        · subst him
          exact hsc.1 j hj
        · refine Eq.trans (hsc.2 (i + n0 * j) ?_) (iv i (by omega) j hj)
          intro j' _ h
          exact him (grid_inj (by omega) (by omega) h).1
      · refine Eq.trans (hsc.2 (i + n0 * v) ?_) (ir i (by omega) hi2 v)
        intro j' _ h
        have := (grid_inj hi2 (by omega : m < n0) h).1
        omega
  obtain ⟨hl2, hv2, _⟩ := h2 n0 (le_refl _)
  generalize (List.range n0).foldl
    (fun a u => scatter a (rowIds n0 n1 u) (fitV (gather a (rowIds n0 s1 u) z))) A = B at hl2 hv2
  -- copy
  have hflat := flatMap_column n0 n1
  rw [hflat]
  refine ⟨by simp [gather], fun i hi j hj => ?_⟩
  have hlt := grid_lt (b := n1) hi hj
  unfold gather
  rw [List.getD_eq_getElem _ _ (by simpa using hlt)]
  simp only [List.getElem_map, List.getElem_range]
  rw [hv2 i hi j hj]
  congr 2
  exact List.map_congr_left fun v hv => hv1 i hi v (List.mem_range.1 hv)

example : surface (P := ℚ) (fun l => [l.getD 0 0, l.getD 2 0]) (fun l => [l.getD 0 0 + l.getD 1 0]) 3 2 2 1
    [1, 2, 3, 4, 5, 6] [0, 0, 0, 0] 0 = [5, 9] := by decide +kernel

/-- C64: if the fits along both directions interpolate (C63), the surface passes through every point of the grid: point `(a, b)` is
number `a + s₀ b`. -/
theorem surface_interpolates (fitU fitV : List K → List K) (s0 s1 n0 n1 : ℕ) (points init : List K)
    (hU : ∀ l, l.length = s0 → (fitU l).length = n0) (hV : ∀ l, l.length = s1 → (fitV l).length = n1) (hn1 : n1 ≤ s1)
    (hinit : init.length = n0 * s1) (A B : ℕ → ℕ → K)
    (hA : ∀ l, l.length = s0 → ∀ a < s0, ∑ i ∈ range n0, A a i * (fitU l).getD i 0 = l.getD a 0)
    (hB : ∀ l, l.length = s1 → ∀ b < s1, ∑ j ∈ range n1, B b j * (fitV l).getD j 0 = l.getD b 0) :
    ∀ a < s0, ∀ b < s1, ∑ j ∈ range n1, ∑ i ∈ range n0,
      A a i * B b j * (surface fitU fitV s0 s1 n0 n1 points init 0).getD (i + n0 * j) 0 = points.getD (a + s0 * b) 0 := by
  obtain ⟨_, hcp⟩ := surface_control_points fitU fitV s0 s1 n0 n1 points init 0 hU hV hn1 hinit
  intro a ha b hb
  rw [Finset.sum_comm]
  have hstep : ∀ i ∈ range n0, ∑ j ∈ range n1,
      A a i * B b j * (surface fitU fitV s0 s1 n0 n1 points init 0).getD (i + n0 * j) 0 =
      A a i * (fitU ((List.range s0).map fun a => points.getD (a + s0 * b) 0)).getD i 0 := by
    intro i hi
    have e : ∀ j ∈ range n1, A a i * B b j * (surface fitU fitV s0 s1 n0 n1 points init 0).getD (i + n0 * j) 0 =
        A a i * (B b j * (fitV ((List.range s1).map fun v =>
          (fitU ((List.range s0).map fun a => points.getD (a + s0 * v) 0)).getD i 0)).getD j 0) := by
      intro j hj
      rw [hcp i (mem_range.1 hi) j (mem_range.1 hj), mul_assoc]
    rw [Finset.sum_congr rfl e, ← Finset.mul_sum, hB _ (by simp) b hb]
    rw [List.getD_eq_getElem _ _ (by simpa using hb)]
    simp
  rw [Finset.sum_congr rfl hstep, hA _ (by simp) a ha, List.getD_eq_getElem _ _ (by simpa using ha)]
  simp

end Splinepy.Fit
