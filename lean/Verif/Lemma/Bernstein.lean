import Verif.Lemma.Blossom
import Mathlib.Data.Nat.Choose.Basic
import Mathlib.Tactic.FieldSimp

/-! On a span whose end knots have at least multiplicity `p`, B-spline basis functions are Bernstein polynomials. -/
namespace Splinepy.Blossom
open Splinepy.Spec

variable {K : Type*} [Field K] [LinearOrder K] [IsStrictOrderedRing K]

omit [LinearOrder K] [IsStrictOrderedRing K] in
theorem bl_bernstein {s : ℕ → K} {μ p : ℕ} {u v x : K} (hp : p ≤ μ)
    (hu : ∀ i, μ + 1 ≤ i + p → i ≤ μ → s i = u) (hv : ∀ i, μ + 1 ≤ i → i ≤ μ + p → s i = v) (d : ℕ) (hd : d ≤ p) (q : ℕ) (hq : q ≤ d) :
    bl s μ (fun _ => x) d (μ - d + q) = bernstein d q u v x := by
  induction d generalizing q with
  | zero =>
    have : q = 0 := by omega
    subst this
    simp [bl, bernstein]
  | succ d ih =>
    have hsup := supp_bl s μ (fun _ => x) d
    have hrec : ∀ J, bl s μ (fun _ => x) (d + 1) J = (x - s J) / (s (J + d + 1) - s J) * bl s μ (fun _ => x) d J +
        (s (J + d + 2) - x) / (s (J + d + 2) - s (J + 1)) * bl s μ (fun _ => x) d (J + 1) := fun J => rfl
    rw [hrec]
    -- the two terms
    have h1 : (x - s (μ - (d + 1) + q)) / (s (μ - (d + 1) + q + d + 1) - s (μ - (d + 1) + q)) * bl s μ (fun _ => x) d (μ - (d + 1) + q) =
        if q = 0 then 0 else (x - u) / (v - u) * bernstein d (q - 1) u v x := by
      by_cases h0 : q = 0
      · subst h0
        rw [if_pos rfl]
        have : bl s μ (fun _ => x) d (μ - (d + 1) + 0) = 0 := by
          by_contra hc; have := hsup _ hc; omega
        rw [this, mul_zero]
      · rw [if_neg h0, hu (μ - (d + 1) + q) (by omega) (by omega), hv (μ - (d + 1) + q + d + 1) (by omega) (by omega),
          show μ - (d + 1) + q = μ - d + (q - 1) by omega, ih (by omega) (q - 1) (by omega)]
    have h2 : (s (μ - (d + 1) + q + d + 2) - x) / (s (μ - (d + 1) + q + d + 2) - s (μ - (d + 1) + q + 1)) *
        bl s μ (fun _ => x) d (μ - (d + 1) + q + 1) = if q = d + 1 then 0 else (v - x) / (v - u) * bernstein d q u v x := by
      by_cases h0 : q = d + 1
      · subst h0
        rw [if_pos rfl]
        have : bl s μ (fun _ => x) d (μ - (d + 1) + (d + 1) + 1) = 0 := by
          by_contra hc; have := hsup _ hc; omega
        rw [this, mul_zero]
      · rw [if_neg h0, hu (μ - (d + 1) + q + 1) (by omega) (by omega), hv (μ - (d + 1) + q + d + 2) (by omega) (by omega),
          show μ - (d + 1) + q + 1 = μ - d + q by omega, ih (by omega) q (by omega)]
    rw [h1, h2]
    unfold bernstein
    generalize (x - u) / (v - u) = a
    generalize (v - x) / (v - u) = b
    cases q with
    | zero =>
      rw [if_pos rfl, if_neg (by omega)]
      simp [pow_succ]
      ring
    | succ q =>
      rw [if_neg (by omega)]
      by_cases h0 : q + 1 = d + 1
      · have : q = d := by omega
        subst this
        rw [if_pos rfl]
        simp [pow_succ]
        ring
      · rw [if_neg h0, Nat.choose_succ_succ, show d + 1 - (q + 1) = (d - (q + 1)) + 1 by omega, show d - (q + 1 - 1) = (d - (q + 1)) + 1 by omega,
          show q + 1 - 1 = q by omega]
        push_cast
        ring

end Splinepy.Blossom
