import Verif.Props.BezierAlgebra
import Verif.Props.Files

/-!
C105: products and sums of Bezier splines.
-/
namespace Splinepy.BezierAlgebra
open Splinepy.Index (Spline)
open Splinepy.Spec Finset

set_option linter.unusedSectionVars false

variable {ops : Operations ℝ} {Q : Spline ℝ (List ℝ) → Prop}

/-- C105, products: `a * b` of Bezier splines is computed exactly if they are of one kind (both rational or both polynomial), have as many parameters, and `b` is scalar or has the dimension
of `a`. Its values are then the products of the values (the scalar product for points of the same dimension greater than one). -/
theorem product_values_partial (h : Spec.Correct ops Q) {a b : Spline ℝ (List ℝ)} (ha : Q a) (hb : Q b) :
    ((multiply ops a b).isSome ↔ (a.weights.isSome = b.weights.isSome ∧ a.degrees.length = b.degrees.length ∧ (Create.dim b = 1 ∨ Create.dim a = Create.dim b))) ∧
    ∀ r, multiply ops a b = some r → ∀ u, Spec.Cube a.degrees.length u →
      if Create.dim b = 1 then ∀ k, point r u k = point a u k * point b u 0
      else Create.dim r = 1 ∧ point r u 0 = ∑ k ∈ range (Create.dim a), point a u k * point b u k := by
  have ka := h.bezier a ha
  have kb := h.bezier b hb
  unfold multiply
  rw [if_neg (by simp [isBezier, ka])]
  by_cases hw : a.weights.isSome = b.weights.isSome
  · rw [if_neg (by rw [not_not, name_eq ka kb]; exact hw)]
    by_cases hn : a.degrees.length = b.degrees.length
    · rw [if_neg (not_not.2 hn)]
      by_cases hd : Create.dim b ≠ 1 ∧ Create.dim a ≠ Create.dim b
      · rw [if_pos hd]
        refine ⟨?_, by simp⟩
        simp only [Option.isSome_none, Bool.false_eq_true, false_iff]
        rintro ⟨-, -, h1 | h1⟩
        · exact hd.1 h1
        · exact hd.2 h1
      · rw [if_neg hd]
        refine ⟨by simp only [Option.isSome_some, hw, hn, true_and]; simp; omega, ?_⟩
        rintro r hr u hu
        obtain rfl := Option.some.inj hr
        split
        · rename_i h1
          exact (h.scaled a b ha hb hw hn h1).2.2 u hu
        · rename_i h1
          have := h.inner a b ha hb hw hn (by by_contra hc; exact hd ⟨h1, hc⟩) h1
          exact ⟨this.2.1.2.2.1, this.2.2 u hu⟩
    · rw [if_pos hn]
      simp [hn]
  · rw [if_pos (by rw [Ne, name_eq ka kb]; exact hw)]
    simp [hw]

/-- C105, sums: `a + b` of Bezier splines is computed exactly if they are of one kind and have as many parameters and coordinates; its values are then the sums of the values. -/
theorem sum_values (h : Spec.Correct ops Q) {a b : Spline ℝ (List ℝ)} (ha : Q a) (hb : Q b) :
    ((add ops a b).isSome ↔ (a.weights.isSome = b.weights.isSome ∧ a.degrees.length = b.degrees.length ∧ Create.dim a = Create.dim b)) ∧
    ∀ r, add ops a b = some r → ∀ u, Spec.Cube a.degrees.length u → ∀ k, point r u k = point a u k + point b u k := by
  have ka := h.bezier a ha
  have kb := h.bezier b hb
  unfold add
  rw [if_neg (by simp [isBezier, ka])]
  by_cases hw : a.weights.isSome = b.weights.isSome
  · rw [if_neg (by rw [not_not, name_eq ka kb]; exact hw)]
    by_cases hn : a.degrees.length = b.degrees.length
    · rw [if_neg (not_not.2 hn)]
      by_cases hd : Create.dim a = Create.dim b
      · rw [if_neg (not_not.2 hd)]
        refine ⟨by simp [hw, hn, hd], ?_⟩
        rintro r hr u hu
        obtain rfl := Option.some.inj hr
        exact (h.plus a b ha hb hw hn hd).2.2 u hu
      · rw [if_pos hd]
        simp [hd]
    · rw [if_pos hn]
      simp [hn]
  · rw [if_pos (by rw [Ne, name_eq ka kb]; exact hw)]
    simp [hw]

/-- C105 is violated: a scalar function times a vector function raises, although the product in the other order is computed. -/
theorem product_commutes_violates (h : Spec.Correct ops Q) {a b : Spline ℝ (List ℝ)} (ha : Q a) (hb : Q b) (hw : a.weights.isSome = b.weights.isSome)
    (hn : a.degrees.length = b.degrees.length) (h1 : Create.dim a = 1) (h2 : Create.dim b ≠ 1) : multiply ops a b = none ∧ (multiply ops b a).isSome := by
  constructor
  · rw [← Option.not_isSome_iff_eq_none, (product_values_partial h ha hb).1]
    rintro ⟨-, -, h3 | h3⟩
    · exact h2 h3
    · exact h2 (by rw [← h3, h1])
  · rw [(product_values_partial h hb ha).1]
    exact ⟨hw.symm, hn.symm, Or.inl h1⟩

/-! ### numbers -/

section
variable {K : Type} [Field K] [LinearOrder K] [IsStrictOrderedRing K]
open SplineCore Files

/-- C105, numbers: `spline * factor` of a constructed Bezier spline and a float is the Bezier spline of the same degrees whose control points are scaled. -/
theorem times_number_partial (maxDim : ℕ) (o : Obj K) (ho : Files.Spec.Constructed maxDim o) (hc : o.cls = .bezier) (factor : K) :
    ∃ s, timesNumber maxDim o.cls o.core factor = some s ∧
      s.core = some { o.core with cps := ⟨o.core.cps.dim, o.core.cps.rows.map fun r => r.map (· * factor)⟩ } := by
  obtain ⟨cls, core⟩ := o
  simp only at hc
  subst hc
  obtain ⟨⟨ds, kvs, cps, ws, s, hg, hs, hcore⟩, -⟩ := ho
  have e := core_of_construct maxDim .bezier ds cps kvs ws hg s hs
  obtain ⟨-, -, -, -, g5, g6⟩ := id hg
  obtain rfl : kvs = none := g5 rfl
  obtain rfl : ws = none := g6 rfl
  rw [e] at hcore
  simp only [Option.some.injEq] at hcore
  subst hcore
  simp only at *
  have hacc := (construction_accepts_partial maxDim .bezier ds cps none none hg).1 (by rw [hs]; rfl)
  have hg' : Given .bezier (⟨some ds, none, some ⟨cps.dim, cps.rows.map fun r => r.map (· * factor)⟩, none⟩ : Props K) := by
    refine ⟨rfl, rfl, ?_, ?_, fun _ => rfl, fun _ => rfl⟩ <;> simp [Cls.requiresKvs, Cls.requiresWs]
  have hsome : (construct maxDim .bezier (⟨some ds, none, some ⟨cps.dim, cps.rows.map fun r => r.map (· * factor)⟩, none⟩ : Props K)).isSome := by
    rw [construction_accepts_partial maxDim .bezier ds _ none none hg']
    obtain ⟨⟨a, b, c, d⟩, e, f⟩ := hacc
    exact ⟨⟨a, by simp, fun h => by simpa using c h, by simp⟩, e, by simp⟩
  obtain ⟨s', hs'⟩ := Option.isSome_iff_exists.1 hsome
  exact ⟨s', hs', by rw [core_of_construct maxDim .bezier ds _ none none hg' s' hs']⟩

/-- Its values are the scaled values. -/
theorem times_number_values (ds : List ℕ) (rows : List (List K)) (factor : K) (u : List K) (k : ℕ) :
    point (⟨ds, none, none, rows.map fun r => r.map (· * factor)⟩ : Spline K (List K)) u k = point (⟨ds, none, none, rows⟩ : Spline K (List K)) u k * factor := by
  unfold point value
  simp only [tensorEval_eq_sum]
  have hb : basisValues (⟨ds, none, none, rows.map fun r => r.map (· * factor)⟩ : Spline K (List K)) u = basisValues (⟨ds, none, none, rows⟩ : Spline K (List K)) u := rfl
  have hn : netSize (⟨ds, none, none, rows.map fun r => r.map (· * factor)⟩ : Spline K (List K)) = netSize (⟨ds, none, none, rows⟩ : Spline K (List K)) := rfl
  rw [hb, hn, sum_mul]
  refine sum_congr rfl fun g hg => ?_
  have hg' := mem_range.1 hg
  rw [List.getD_eq_getElem _ _ (by simpa using hg'), List.getD_eq_getElem _ _ (by simpa using hg'), List.getElem_map, List.getElem_map, List.getElem_range]
  have : ((rows.map fun r => r.map (· * factor)).getD g []).getD k 0 = (rows.getD g []).getD k 0 * factor := by
    rcases lt_or_ge g rows.length with h | h
    · rw [List.getD_eq_getElem _ [] (by simpa using h), List.getD_eq_getElem _ [] h, List.getElem_map]
      rcases lt_or_ge k rows[g].length with h' | h'
      · rw [List.getD_eq_getElem _ _ (by simpa using h'), List.getD_eq_getElem _ _ h', List.getElem_map]
      · rw [List.getD_eq_default _ _ (by simpa using h'), List.getD_eq_default _ _ h', zero_mul]
    · rw [List.getD_eq_default _ [] (by simpa using h), List.getD_eq_default _ [] h]
      simp
  rw [this]
  ring

/-- C105 is violated for rational splines: `spline * factor` of any rational Bezier spline returns an object without a spline, as the weights are left out. -/
theorem times_number_rational_violates (maxDim : ℕ) (core : Core K) (factor : K) :
    ∃ s, timesNumber maxDim .rationalBezier core factor = some s ∧ s.core = none := by
  unfold timesNumber construct run
  simp [Cls.takesKvs, Cls.takesWs, step, setDegrees, setCps, getKvs, getDegrees, State.core, mismatch, safeNewCore, pyNewCore, Cls.requiresWs, Cls.requiresKvs, getCps, getWs, prepare]

/-- A rational circular arc times two. -/
example : Files.Spec.Constructed 3 (⟨.rationalBezier, ⟨.rationalBezier, [2], none, ⟨2, [[1, 0], [1, 1], [0, 1]]⟩, some [1, 2, 2]⟩⟩ : Obj ℚ) :=
  ⟨⟨[2], none, ⟨2, [[1, 0], [1, 1], [0, 1]]⟩, some [1, 2, 2], _, by refine ⟨rfl, rfl, ?_, ?_, ?_, ?_⟩ <;> simp [Cls.requiresKvs, Cls.takesWs], rfl, by decide +kernel⟩, by decide +kernel⟩

/-- A segment times two. -/
example : Files.Spec.Constructed 3 (⟨.bezier, ⟨.bezier, [1], none, ⟨2, [[1, 0], [1, 1]]⟩, none⟩⟩ : Obj ℚ) :=
  ⟨⟨[1], none, ⟨2, [[1, 0], [1, 1]]⟩, none, _, by refine ⟨rfl, rfl, ?_, ?_, ?_, ?_⟩ <;> simp [Cls.requiresKvs, Cls.requiresWs], rfl, by decide +kernel⟩, by decide +kernel⟩

end

/-! ### the hypotheses are met -/

/-- a scalar function and a vector function of the parameter of a curve -/
theorem sample_scalar : Spec.Polynomial ⟨[1], none, none, [[1], [2]]⟩ := ⟨rfl, by simp, by simp [Create.dim], by simp⟩

example : (multiply exact sampleDerivative ⟨[1], none, none, [[1], [2]]⟩).isSome ∧ multiply exact ⟨[1], none, none, [[1], [2]]⟩ sampleDerivative = none ∧ (add exact sampleDerivative (sampleInner 0)).isSome := by
  obtain ⟨h1, h2, h3⟩ := sample_polynomial
  have := product_commutes_violates operations_exist sample_scalar h3 rfl rfl rfl (by simp [sampleDerivative, Create.dim])
  exact ⟨this.2, this.1, (sum_values operations_exist h3 (h2 0)).1.2 ⟨rfl, rfl, rfl⟩⟩

end Splinepy.BezierAlgebra
