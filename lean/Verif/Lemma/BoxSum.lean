import Verif.Lemma.MixedRadix
import Mathlib.MeasureTheory.Integral.Bochner.Set
import Mathlib.Data.List.GetD
import Mathlib.MeasureTheory.Constructions.Pi
import Mathlib.MeasureTheory.Measure.Lebesgue.Basic

/-! Integral over a box that is divided into smaller boxes. -/
namespace Splinepy.BoxSum
open MeasureTheory Splinepy.Spec

theorem sum_boxes {n : ℕ} (N : ℕ) (a b : ℕ → Fin n → ℝ) (lo up : Fin n → ℝ) (G : (Fin n → ℝ) → ℝ)
    (hdisj : ∀ i < N, ∀ j < N, i ≠ j → ∃ l, b i l ≤ a j l ∨ b j l ≤ a i l)
    (hcov : ∀ x : Fin n → ℝ, (∀ l, lo l ≤ x l ∧ x l < up l) ↔ ∃ i < N, ∀ l, a i l ≤ x l ∧ x l < b i l)
    (hG : ∀ i < N, IntegrableOn G (Set.Icc (a i) (b i))) :
    ∑ i ∈ Finset.range N, ∫ x in Set.Icc (a i) (b i), G x = ∫ x in Set.Icc lo up, G x := by
  have e : ∀ p q : Fin n → ℝ, (Set.univ.pi fun l => Set.Ico (p l) (q l)) =ᵐ[volume] Set.Icc p q := fun p q => Measure.univ_pi_Ico_ae_eq_Icc
  rw [← setIntegral_congr_set (e lo up)]
  have hu : (Set.univ.pi fun l => Set.Ico (lo l) (up l)) = ⋃ i ∈ Finset.range N, Set.univ.pi fun l => Set.Ico (a i l) (b i l) := by
    ext x
    simp only [Set.mem_pi, Set.mem_univ, true_implies, Set.mem_Ico, Set.mem_iUnion, Finset.mem_range, exists_prop]
    exact hcov x
  rw [hu, integral_biUnion_finset]
  · exact Finset.sum_congr rfl fun i _ => (setIntegral_congr_set (e _ _)).symm
  · exact fun i _ => MeasurableSet.univ_pi fun l => measurableSet_Ico
  · intro i hi j hj hij
    rw [Function.onFun, Set.disjoint_left]
    intro x hx hy
    obtain ⟨l, h | h⟩ := hdisj i (by simpa using hi) j (by simpa using hj) hij
    · have h1 := hx l trivial
      have h2 := hy l trivial
      exact absurd (lt_of_lt_of_le h1.2 h) (not_lt.2 h2.1)
    · have h1 := hx l trivial
      have h2 := hy l trivial
      exact absurd (lt_of_lt_of_le h2.2 h) (not_lt.2 h1.1)
  · intro i hi
    exact (hG i (by simpa using hi)).congr_set_ae (e _ _)

theorem span_exists (f : ℕ → ℝ) (x : ℝ) : ∀ m, f 0 ≤ x → x < f m → ∃ c < m, f c ≤ x ∧ x < f (c + 1)
  | 0, h0, h1 => absurd h0 (not_le.2 h1)
  | m + 1, h0, h1 => by
    by_cases h : x < f m
    · obtain ⟨c, hc, h⟩ := span_exists f x m h0 h
      exact ⟨c, by omega, h⟩
    · exact ⟨m, by omega, not_lt.1 h, h1⟩

/-- A box divided by a grid: the cells are numbered with the first direction running fastest. -/
theorem sum_grid {n : ℕ} (rs : List ℕ) (hn : rs.length = n) (hr : ∀ r ∈ rs, 0 < r) (U : Fin n → ℕ → ℝ)
    (hU : ∀ l : Fin n, ∀ p q, p < q → q ≤ rs.getD l 0 → U l p < U l q) (G : (Fin n → ℝ) → ℝ)
    (hG : ∀ i < rs.prod, IntegrableOn G (Set.Icc (fun l => U l ((digits rs i).getD l 0)) (fun l => U l ((digits rs i).getD l 0 + 1)))) :
    ∑ i ∈ Finset.range rs.prod, ∫ x in Set.Icc (fun l => U l ((digits rs i).getD l 0)) (fun l => U l ((digits rs i).getD l 0 + 1)), G x =
      ∫ x in Set.Icc (fun l => U l 0) (fun l => U l (rs.getD l 0)), G x := by
  have hlt : ∀ i, ∀ l : Fin n, (digits rs i).getD l 0 < rs.getD l 0 := by
    intro i l
    obtain ⟨h1, h2⟩ := inGrid_iff.1 (digits_inGrid rs i hr)
    have hl : (l : ℕ) < rs.length := by omega
    rw [List.getD_eq_getElem _ 0 (by omega), List.getD_eq_getElem _ 0 hl]
    exact h2 l hl
  have hle : ∀ l : Fin n, ∀ p q, p ≤ q → q ≤ rs.getD l 0 → U l p ≤ U l q := by
    intro l p q hpq hq
    rcases Nat.lt_or_eq_of_le hpq with h | h
    · exact (hU l p q h hq).le
    · rw [h]
  refine sum_boxes rs.prod (fun i l => U l ((digits rs i).getD l 0)) (fun i l => U l ((digits rs i).getD l 0 + 1)) _ _ G ?_ ?_ hG
  · intro i hi j hj hij
    by_contra hcon
    push Not at hcon
    apply hij
    apply digits_inj rs i j hi hj
    apply List.ext_getElem
    · simp [digits_length]
    · intro l h1 h2
      rw [digits_length] at h1
      have hl : l < n := by omega
      have h := hcon ⟨l, hl⟩
      have a1 := hlt i ⟨l, hl⟩
      have a2 := hlt j ⟨l, hl⟩
      rw [← List.getD_eq_getElem _ 0, ← List.getD_eq_getElem _ 0]
      by_contra hne
      rcases Nat.lt_or_gt_of_ne hne with h' | h'
      · exact absurd (hle ⟨l, hl⟩ _ _ h' a2.le) (not_le.2 h.1)
      · exact absurd (hle ⟨l, hl⟩ _ _ h' a1.le) (not_le.2 h.2)
  · intro x
    constructor
    · intro hx
      have hc : ∀ l : Fin n, ∃ c < rs.getD l 0, U l c ≤ x l ∧ x l < U l (c + 1) := fun l => span_exists (U l) (x l) _ (hx l).1 (hx l).2
      choose c h1 h2 using hc
      have hg : InGrid rs (List.ofFn c) := by
        refine inGrid_iff.2 ⟨by simp [hn], fun d hd => ?_⟩
        have := h1 ⟨d, by omega⟩
        rw [List.getD_eq_getElem _ 0 hd] at this
        simpa using this
      refine ⟨flat rs (List.ofFn c), flat_lt _ _ hg, fun l => ?_⟩
      rw [digits_flat _ _ hg]
      have : (List.ofFn c).getD l 0 = c l := by rw [List.getD_eq_getElem _ 0 (by simp)]; simp
      simp only [this]
      exact h2 l
    · rintro ⟨i, hi, h⟩ l
      have := hlt i l
      exact ⟨le_trans (hle l _ _ (Nat.zero_le _) this.le) (h l).1, lt_of_lt_of_le (h l).2 (hle l _ _ this le_rfl)⟩

end Splinepy.BoxSum
