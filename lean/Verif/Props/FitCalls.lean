import Verif.Model.FitCalls
import Mathlib.Data.List.Basic
import Mathlib.Tactic.SplitIfs

/-!
C149: fitting returns for points of every dimension, with or without scipy, and in the form that was asked for.
-/
namespace Splinepy.FitCalls

/-! ### Specification -/

/-- what a call should return -/
def Spec.wanted (verbose : Bool) : Returned := if verbose then .dictionary else .pair

/-- the numbers of a fit: at least two control points, not more than points, at least one coordinate -/
structure Spec.Sizes (m n d : ℕ) : Prop where
  two : 2 ≤ n
  enough : n ≤ m
  coordinate : 1 ≤ d

/-! ### Auxiliary statements -/

theorem solves_iff (scipy endpoints : Bool) {m n d : ℕ} (h : Spec.Sizes m n d) :
    solves scipy endpoints m n d = true ↔ (d ≠ 1 ∨ scipy = false ∨ (endpoints = true ∧ n ≠ m ∧ n ≤ 3)) := by
  obtain ⟨h2, hm, hd⟩ := h
  by_cases h1 : d = 1
  · subst h1
    cases scipy <;> cases endpoints <;> by_cases hnm : n = m <;> simp [solves, solveShape, assignAll, assignInner, hnm]
    omega
  · cases scipy <;> cases endpoints <;> by_cases hnm : n = m <;> simp [solves, solveShape, assignAll, assignInner, hnm, h1]

theorem answer_verbose : answer true = .raises := by decide +kernel

theorem answer_pair : answer false = .pair := rfl

/-! ### C149 -/

/-- C149: `fit.curve` returns the spline and its residual, for points with several coordinates or without scipy, for all numbers of points and control points, with
and without given parameters (an array or a nested list with one column). -/
theorem curve_returns_partial (scipy endpoints : Bool) (queries : Option Queries) (hq : queries ≠ some .flat) {m n d : ℕ} (h : Spec.Sizes m n d)
    (hd : 2 ≤ d ∨ scipy = false) : curve scipy queries endpoints false m n d = Spec.wanted false := by
  unfold curve
  rw [if_neg hq, if_pos ((solves_iff scipy endpoints h).mpr (by rcases hd with hd | hd; exact Or.inl (by omega); exact Or.inr (Or.inl hd)))]
  rfl

/-- C149: exactly when `fit.curve` returns the spline and its residual. -/
theorem curve_returns_iff (scipy endpoints verbose : Bool) (queries : Option Queries) {m n d : ℕ} (h : Spec.Sizes m n d) :
    curve scipy queries endpoints verbose m n d = .pair ↔
      verbose = false ∧ queries ≠ some .flat ∧ (d ≠ 1 ∨ scipy = false ∨ (endpoints = true ∧ n ≠ m ∧ n ≤ 3)) := by
  unfold curve
  rw [← solves_iff scipy endpoints h]
  cases verbose <;> split_ifs <;> simp_all [answer_verbose, answer_pair]

/-- C149: the same for `fit.surface`; given parameters are arrays. -/
theorem surface_returns_partial (scipy endpoints given : Bool) (queries : Option Queries) (hq : queries = none ∨ queries = some .array ∨ given = false)
    {s0 s1 n0 n1 d : ℕ} (h0 : Spec.Sizes s0 n0 d) (h1 : Spec.Sizes s1 n1 d) (hd : 2 ≤ d ∨ scipy = false) :
    surface scipy queries given endpoints false s0 s1 n0 n1 d = Spec.wanted false := by
  have e0 := curve_returns_partial scipy endpoints (some .array) (by decide) h0 hd
  have e1 := curve_returns_partial scipy endpoints (some .array) (by decide) h1 hd
  unfold surface
  rw [if_neg (by rcases hq with h | h | h <;> simp [h]), e0, e1, if_pos (by simp [Spec.wanted]), if_pos (by simp [Spec.wanted])]
  rfl

/-- C149 fails with scipy for points with one coordinate: `fit.curve` raises whenever it should interpolate, and for every approximation with more than three control
points. -/
theorem one_coordinate_violates (endpoints verbose : Bool) (queries : Option Queries) {m n : ℕ} (h : Spec.Sizes m n 1)
    (hn : endpoints = false ∨ n = m ∨ 4 ≤ n) :
    curve true queries endpoints verbose m n 1 = .raises := by
  have e : solves true endpoints m n 1 = false := by
    rw [Bool.eq_false_iff]
    intro hs
    rcases (solves_iff true endpoints h).mp hs with h | h | ⟨h1, h2, h3⟩
    · exact h rfl
    · cases h
    · rcases hn with hn | hn | hn
      · rw [hn] at h1; cases h1
      · exact h2 hn
      · omega
  unfold curve
  split_ifs with hq hs
  · rfl
  · rw [e] at hs; cases hs
  · rfl

/-- C149 fails for `verbose_output=True`: both functions raise for all arguments, since splines have no `knot_vector`. -/
theorem verbose_violates (scipy endpoints given : Bool) (queries : Option Queries) (m n d s0 s1 n0 n1 : ℕ) :
    curve scipy queries endpoints true m n d = .raises ∧ surface scipy queries given endpoints true s0 s1 n0 n1 d = .raises := by
  constructor
  · unfold curve
    rw [answer_verbose]
    split_ifs <;> rfl
  · unfold surface
    rw [answer_verbose]
    split_ifs <;> rfl

/-- C149 fails for `fit.surface` with the parameters as lists, the documented form, beside a knot vector or spline. -/
theorem listed_queries_violates (scipy endpoints verbose : Bool) (s0 s1 n0 n1 d : ℕ) :
    surface scipy (some .nested) true endpoints verbose s0 s1 n0 n1 d = .raises := by
  unfold surface
  rw [if_pos ⟨rfl, Or.inr rfl⟩]

/-! ### instances -/

example : Spec.Sizes 10 5 2 ∧ Spec.Sizes 10 10 1 := ⟨⟨by decide, by decide, by decide⟩, ⟨by decide, by decide, by decide⟩⟩

example : curve true none true false 10 5 2 = .pair := curve_returns_partial true true none (by decide) ⟨by decide, by decide, by decide⟩ (Or.inl (by decide))

example : curve true none true false 10 10 1 = .raises := one_coordinate_violates true false none ⟨by decide, by decide, by decide⟩ (Or.inr (Or.inl rfl))

example : curve true none true false 10 3 1 = .pair ∧ curve false none true false 10 10 1 = .pair ∧ curve true (some .flat) true false 10 5 2 = .raises := by decide +kernel

example : surface true none false true false 10 7 5 7 3 = .pair :=
  surface_returns_partial true true false none (Or.inl rfl) ⟨by decide, by decide, by decide⟩ ⟨by decide, by decide, by decide⟩ (Or.inl (by decide))

end Splinepy.FitCalls
