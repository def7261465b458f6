import Verif.Model.KnotInsertion
import Verif.Props.Extraction

/-!
C04: where Bezier extraction leaves the arrays it allocates: degree 0, and knot vectors which do not begin with a full multiplicity.
-/

namespace Splinepy.KnotInsertion

variable {K : Type} [Field K] [LinearOrder K] [IsStrictOrderedRing K]

/-- The loop writes every old knot and every added one: it never ends with fewer places than this. -/
theorem extractionLoop_room (deg : ℕ) (tol : K) : ∀ (fuel : ℕ) (old : List K) (r : ℕ) (c : K) (res : List K × List K),
    extractionLoop deg tol fuel old r c = some res → res.1.length = old.length + res.2.length ∧ old.length + res.2.length ≤ fuel := by
  intro fuel
  induction fuel with
  | zero =>
    intro old r c res h
    cases old with
    | nil => simp only [extractionLoop, Option.some.injEq] at h; subst h; simp
    | cons x old => simp [extractionLoop] at h
  | succ fuel ih =>
    intro old r c res h
    cases old with
    | nil => simp only [extractionLoop, Option.some.injEq] at h; subst h; simp
    | cons x old =>
      simp only [extractionLoop] at h
      generalize (if r > deg then x else c) = c' at h
      generalize (if r > deg then 1 else r) = r' at h
      by_cases hc : |c' - x| < tol
      · rw [if_pos hc] at h
        obtain ⟨res', h', rfl⟩ := Option.map_eq_some_iff.1 h
        have := ih _ _ _ _ h'
        simp only [List.length_cons]; omega
      · rw [if_neg hc] at h
        obtain ⟨res', h', rfl⟩ := Option.map_eq_some_iff.1 h
        have := ih _ _ _ _ h'
        simp only [List.length_cons] at *; omega

/-- **C04, violated for degree 0.** A piecewise constant direction with at least one inner knot: the arrays have room for the two outer knots
only (the number of inner knots is multiplied by the degree), and extraction writes behind them. -/
theorem extraction_degree_zero_violates (tol : K) (old : List K) (h : 2 < old.length) : extractionKnots 0 tol old = none := by
  unfold extractionKnots
  rw [if_neg (by omega)]
  cases hl : extractionLoop 0 tol ((old.length - (0 + 1) * 2) * 0 + (0 + 1) * 2) old 0 (at_ old 0) with
  | none => simp only [hl, Option.bind_none]
  | some res =>
    have := extractionLoop_room _ _ _ _ _ _ _ hl
    omega

/-- **C04, violated without a full multiplicity at the beginning.** A direction of degree at least 1 with a single span and as few knots as its
degree allows, whose first two knots are apart (for example a uniform knot vector): there is no room for any additional knot, but the
loop adds copies of the first one, and writes behind the arrays. -/
theorem extraction_unclamped_violates (deg : ℕ) (tol : K) (ht : 0 < tol) (hdeg : 1 ≤ deg) (a b : K) (rest : List K)
    (hlen : (a :: b :: rest).length = (deg + 1) * 2) (hab : tol ≤ |a - b|) :
    extractionKnots deg tol (a :: b :: rest) = none := by
  unfold extractionKnots
  rw [if_neg (by omega)]
  simp only [hlen, Nat.sub_self, Nat.zero_mul, Nat.zero_add]
  cases hl : extractionLoop deg tol ((deg + 1) * 2) (a :: b :: rest) 0 (at_ (a :: b :: rest) 0) with
  | none => rfl
  | some res =>
    have hr := extractionLoop_room _ _ _ _ _ _ _ hl
    have h0 : at_ (a :: b :: rest) 0 = a := rfl
    rw [h0, show (deg + 1) * 2 = (deg * 2) + 1 + 1 by ring] at hl
    rw [extractionLoop] at hl
    simp only [gt_iff_lt, Nat.not_lt_zero, if_false, sub_self, abs_zero, ht, if_true] at hl
    obtain ⟨res', h', rfl⟩ := Option.map_eq_some_iff.1 hl
    rw [extractionLoop] at h'
    simp only [if_neg (show ¬ (0 + 1 > deg) by omega), if_neg (not_lt.2 hab)] at h'
    obtain ⟨res'', h'', rfl⟩ := Option.map_eq_some_iff.1 h'
    simp only [List.length_cons] at hr hlen
    omega

example : extractionKnots 0 (1 / 1000) [0, 1, (2 : ℚ)] = none := extraction_degree_zero_violates _ _ (by simp)

example : extractionKnots 2 (1 / 1000) [0, 1, 2, 3, 4, (5 : ℚ)] = none :=
  extraction_unclamped_violates _ _ (by norm_num) (by norm_num) _ _ _ (by simp) (by norm_num)

end Splinepy.KnotInsertion
