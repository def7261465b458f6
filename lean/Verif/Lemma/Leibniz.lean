import Verif.Spec.Partial
import Verif.Lemma.Tensor
import Mathlib.Analysis.Calculus.ContDiff.Basic
import Mathlib.Analysis.Calculus.ContDiff.Operations
import Mathlib.Analysis.Calculus.FDeriv.Mul
import Mathlib.Data.Nat.Choose.Sum

/-! Leibniz rule for mixed partial derivatives on an open set. -/
namespace Splinepy.Spec
open Finset

variable {n : ℕ} {U : Set (Fin n → ℝ)}

/-- smooth on `U` -/
abbrev Smooth (U : Set (Fin n → ℝ)) (f : (Fin n → ℝ) → ℝ) : Prop := ContDiffOn ℝ (⊤ : ℕ∞) f U

theorem Smooth.differentiableAt (hU : IsOpen U) {f : (Fin n → ℝ) → ℝ} (hf : Smooth U f) {x : Fin n → ℝ} (hx : x ∈ U) : DifferentiableAt ℝ f x :=
  (hf.contDiffAt (hU.mem_nhds hx)).differentiableAt (by simp)

theorem partialD_smooth (hU : IsOpen U) (i : Fin n) {f : (Fin n → ℝ) → ℝ} (hf : Smooth U f) : Smooth U (partialD i f) := by
  have h1 : ContDiffOn ℝ (⊤ : ℕ∞) (fderiv ℝ f) U := hf.fderiv_of_isOpen hU (by simp)
  exact h1.clm_apply contDiffOn_const

theorem partialD_congr (hU : IsOpen U) (i : Fin n) {f g : (Fin n → ℝ) → ℝ} (h : Set.EqOn f g U) : Set.EqOn (partialD i f) (partialD i g) U := by
  intro x hx
  unfold partialD
  rw [Filter.EventuallyEq.fderiv_eq (Filter.eventuallyEq_of_mem (hU.mem_nhds hx) h)]

theorem partialD_mul (hU : IsOpen U) (i : Fin n) {f g : (Fin n → ℝ) → ℝ} (hf : Smooth U f) (hg : Smooth U g) {x : Fin n → ℝ} (hx : x ∈ U) :
    partialD i (fun y => f y * g y) x = partialD i f x * g x + f x * partialD i g x := by
  unfold partialD
  rw [fderiv_fun_mul (hf.differentiableAt hU hx) (hg.differentiableAt hU hx)]
  simp
  ring

theorem partialD_sum (hU : IsOpen U) (i : Fin n) {ι : Type} (s : Finset ι) (c : ι → ℝ) (f : ι → (Fin n → ℝ) → ℝ) (hf : ∀ j ∈ s, Smooth U (f j))
    {x : Fin n → ℝ} (hx : x ∈ U) : partialD i (fun y => ∑ j ∈ s, c j * f j y) x = ∑ j ∈ s, c j * partialD i (f j) x := by
  unfold partialD
  rw [fderiv_fun_sum (fun j hj => ((hf j hj).differentiableAt hU hx).const_mul (c j))]
  rw [_root_.sum_apply]
  apply sum_congr rfl
  intro j hj
  rw [fderiv_const_mul ((hf j hj).differentiableAt hU hx)]
  simp

theorem iter_smooth (hU : IsOpen U) (i : Fin n) (k : ℕ) {f : (Fin n → ℝ) → ℝ} (hf : Smooth U f) : Smooth U ((partialD i)^[k] f) := by
  induction k with
  | zero => exact hf
  | succ k ih => rw [Function.iterate_succ_apply']; exact partialD_smooth hU i ih

theorem iter_congr (hU : IsOpen U) (i : Fin n) (k : ℕ) {f g : (Fin n → ℝ) → ℝ} (h : Set.EqOn f g U) :
    Set.EqOn ((partialD i)^[k] f) ((partialD i)^[k] g) U := by
  induction k with
  | zero => exact h
  | succ k ih => rw [Function.iterate_succ_apply', Function.iterate_succ_apply']; exact partialD_congr hU i ih

theorem iter_sum (hU : IsOpen U) (i : Fin n) (k : ℕ) {ι : Type} (s : Finset ι) (c : ι → ℝ) (f : ι → (Fin n → ℝ) → ℝ) (hf : ∀ j ∈ s, Smooth U (f j)) :
    Set.EqOn ((partialD i)^[k] (fun y => ∑ j ∈ s, c j * f j y)) (fun x => ∑ j ∈ s, c j * (partialD i)^[k] (f j) x) U := by
  induction k with
  | zero => intro x _; rfl
  | succ k ih =>
    intro x hx
    simp only [Function.iterate_succ_apply']
    rw [partialD_congr hU i ih hx]
    exact partialD_sum hU i s c (fun j => (partialD i)^[k] (f j)) (fun j hj => iter_smooth hU i k (hf j hj)) hx

theorem smooth_sum {ι : Type} (s : Finset ι) (c : ι → ℝ) (f : ι → (Fin n → ℝ) → ℝ) (hf : ∀ j ∈ s, Smooth U (f j)) :
    Smooth U (fun y => ∑ j ∈ s, c j * f j y) :=
  ContDiffOn.sum (fun j hj => contDiffOn_const.mul (hf j hj))

/-- Leibniz rule in one variable -/
theorem iter_mul (hU : IsOpen U) (i : Fin n) (k : ℕ) {f g : (Fin n → ℝ) → ℝ} (hf : Smooth U f) (hg : Smooth U g) :
    Set.EqOn ((partialD i)^[k] (fun y => f y * g y))
      (fun x => ∑ j ∈ range (k + 1), (k.choose j : ℝ) * ((partialD i)^[j] f x * (partialD i)^[k - j] g x)) U := by
  induction k with
  | zero => intro x _; simp
  | succ k ih =>
    intro x hx
    rw [Function.iterate_succ_apply', partialD_congr hU i ih hx]
    rw [partialD_sum hU i (range (k + 1)) (fun j => (k.choose j : ℝ)) (fun j y => (partialD i)^[j] f y * (partialD i)^[k - j] g y)
      (fun j _ => (iter_smooth hU i j hf).mul (iter_smooth hU i (k - j) hg)) hx]
    have h := Finset.sum_choose_succ_mul (R := ℝ) (fun a b => (partialD i)^[a] f x * (partialD i)^[b] g x) k
    refine Eq.trans ?_ h.symm
    rw [← sum_add_distrib]
    apply sum_congr rfl
    intro j hj
    rw [mem_range] at hj
    rw [partialD_mul hU i (iter_smooth hU i j hf) (iter_smooth hU i (k - j) hg) hx]
    rw [show k + 1 - j = (k - j) + 1 by omega, Function.iterate_succ_apply' (partialD i) (k - j) g, Function.iterate_succ_apply' (partialD i) j f]
    ring

theorem mixedD_congr (hU : IsOpen U) (is : List (Fin n)) (ks : List ℕ) {f g : (Fin n → ℝ) → ℝ} (h : Set.EqOn f g U) :
    Set.EqOn (mixedD is ks f) (mixedD is ks g) U := by
  induction is generalizing ks f g with
  | nil => simpa [mixedD] using h
  | cons i is ih =>
    cases ks with
    | nil => simpa [mixedD] using h
    | cons k ks => exact ih ks (iter_congr hU i k h)

theorem mixedD_sum (hU : IsOpen U) (is : List (Fin n)) (ks : List ℕ) {ι : Type} (s : Finset ι) (c : ι → ℝ) (f : ι → (Fin n → ℝ) → ℝ)
    (hf : ∀ j ∈ s, Smooth U (f j)) :
    Set.EqOn (mixedD is ks (fun y => ∑ j ∈ s, c j * f j y)) (fun x => ∑ j ∈ s, c j * mixedD is ks (f j) x) U := by
  induction is generalizing ks f with
  | nil => intro x _; simp [mixedD]
  | cons i is ih =>
    cases ks with
    | nil => intro x _; simp [mixedD]
    | cons k ks =>
      intro x hx
      simp only [mixedD]
      rw [mixedD_congr hU is ks (iter_sum hU i k s c f hf) hx]
      exact ih ks (fun j => (partialD i)^[k] (f j)) (fun j hj => iter_smooth hU i k (hf j hj)) hx

/-- product of binomial coefficients -/
def binom (ks js : List ℕ) : ℕ := (List.zipWith Nat.choose ks js).prod

/-- Leibniz rule for mixed derivatives, the sum running over the grid of all orders up to `os` -/
theorem mixedD_mul (hU : IsOpen U) (is : List (Fin n)) (os ks : List ℕ) (h : List.Forall₂ (· ≤ ·) ks os) (hl : is.length = ks.length)
    {f g : (Fin n → ℝ) → ℝ} (hf : Smooth U f) (hg : Smooth U g) :
    Set.EqOn (mixedD is ks (fun y => f y * g y))
      (fun x => ((List.range (os.map (· + 1)).prod).map (fun j => (binom ks (digits (os.map (· + 1)) j) : ℝ) *
        (mixedD is (digits (os.map (· + 1)) j) f x * mixedD is (List.zipWith (· - ·) ks (digits (os.map (· + 1)) j)) g x))).sum) U := by
  induction h generalizing is f g with
  | nil => intro x _; cases is <;> simp [mixedD, binom, digits] at *
  | cons hko hrest ih =>
    rename_i k o ks os
    cases is with
    | nil => simp at hl
    | cons i is =>
      have hl' : is.length = ks.length := by simpa using hl
      intro x hx
      have h1 : Set.EqOn ((partialD i)^[k] (fun y => f y * g y))
          (fun x => ∑ j ∈ range (o + 1), (k.choose j : ℝ) * ((partialD i)^[j] f x * (partialD i)^[k - j] g x)) U := by
        intro y hy
        rw [iter_mul hU i k hf hg hy]
        apply sum_subset
        · intro j hj; rw [mem_range] at *; omega
        · intro j _ hj
          rw [mem_range] at hj
          rw [Nat.choose_eq_zero_of_lt (by omega), Nat.cast_zero, zero_mul]
      have h2 : mixedD (i :: is) (k :: ks) (fun y => f y * g y) x = mixedD is ks ((partialD i)^[k] (fun y => f y * g y)) x := rfl
      rw [h2, mixedD_congr hU is ks h1 hx]
      rw [mixedD_sum hU is ks (range (o + 1)) (fun j => (k.choose j : ℝ)) (fun j y => (partialD i)^[j] f y * (partialD i)^[k - j] g y)
        (fun j _ => (iter_smooth hU i j hf).mul (iter_smooth hU i (k - j) hg)) hx]
      simp only [List.map_cons, List.prod_cons]
      rw [sum_range_mul]
      -- swap the sums
      have hswap : ∀ F : ℕ → ℕ → ℝ, ((List.range (os.map (· + 1)).prod).map fun l => ((List.range (o + 1)).map fun a => F a l).sum).sum =
          ∑ a ∈ range (o + 1), ((List.range (os.map (· + 1)).prod).map fun l => F a l).sum := by
        intro F
        have e : ∀ (m : ℕ) (G : ℕ → ℝ), ((List.range m).map G).sum = ∑ j ∈ range m, G j := by
          intro m G
          induction m with
          | zero => simp
          | succ m ihm => rw [List.range_succ, List.map_append, List.sum_append, ihm, sum_range_succ]; simp
        simp only [e]
        rw [sum_comm]
      rw [hswap (fun a l => _)]
      apply sum_congr rfl
      intro a ha
      rw [mem_range] at ha
      have h3 := ih is hl' (iter_smooth hU i a hf) (iter_smooth hU i (k - a) hg) hx
      simp only at h3
      rw [h3, ← List.sum_map_mul_left]
      congr 1
      apply List.map_congr_left
      intro l _
      have hd : digits ((o + 1) :: os.map (· + 1)) (a + (o + 1) * l) = a :: digits (os.map (· + 1)) l := by
        simp only [digits]
        rw [Nat.add_mul_mod_self_left, Nat.mod_eq_of_lt ha, Nat.add_mul_div_left _ _ (by omega), Nat.div_eq_of_lt ha, Nat.zero_add]
      rw [hd]
      simp only [binom, List.zipWith_cons_cons, List.prod_cons, mixedD, Nat.cast_mul]
      ring

end Splinepy.Spec
