import Verif.Model.Quiver

/-!
C101: arrows of the SVG export point from their position along their vector.
-/
namespace Splinepy.Quiver

/-! ### Specification -/

/-- The point `a` along the arrow's vector (1 is its tip) and `b` to its left, in coordinates of the picture. -/
def Spec.along (o : Options) (minX maxY : ℝ) (position vector : ℝ × ℝ) (a b : ℝ) : ℝ × ℝ :=
  (position.1 + o.scale * (a * vector.1 - b * vector.2) - minX, maxY - (position.2 + o.scale * (a * vector.2 + b * vector.1)))

/-- The vector is longer than the tolerance. -/
def Spec.Long (o : Options) (vector : ℝ × ℝ) : Prop := o.tolerance < Real.sqrt (vector.1 ^ 2 + vector.2 ^ 2)

/-! ### Proof -/

theorem polar (d : ℝ × ℝ) : length d * Real.cos (Complex.arg ⟨d.1, d.2⟩) = d.1 ∧ length d * Real.sin (Complex.arg ⟨d.1, d.2⟩) = d.2 := by
  have hn : length d = ‖(⟨d.1, d.2⟩ : ℂ)‖ := by
    rw [length, Complex.norm_eq_sqrt_sq_add_sq]
  rw [hn]
  exact ⟨Complex.norm_mul_cos_arg _, Complex.norm_mul_sin_arg _⟩

/-- C101: the outline of an arrow: shaft from the position, head with its tip at the position plus the scaled vector; widths and lengths relative to the vector. -/
theorem arrow_shape (o : Options) (minX maxY : ℝ) (position vector : ℝ × ℝ) :
    (arrow o position vector).map (fun p => (p.1 - minX, maxY - p.2)) =
      [Spec.along o minX maxY position vector 0 (-o.width / 2), Spec.along o minX maxY position vector (1 - o.headaxisLength) (-o.width / 2),
        Spec.along o minX maxY position vector (1 - o.headLength) (-o.headWidth / 2), Spec.along o minX maxY position vector 1 0,
        Spec.along o minX maxY position vector (1 - o.headLength) (o.headWidth / 2), Spec.along o minX maxY position vector (1 - o.headaxisLength) (o.width / 2),
        Spec.along o minX maxY position vector 0 (o.width / 2)] := by
  obtain ⟨hc, hs⟩ := polar vector
  have e : ∀ a b : ℝ, ((length vector * (Real.cos (Complex.arg ⟨vector.1, vector.2⟩) * a + -Real.sin (Complex.arg ⟨vector.1, vector.2⟩) * b) * o.scale + position.1 - minX,
      maxY - (length vector * (Real.sin (Complex.arg ⟨vector.1, vector.2⟩) * a + Real.cos (Complex.arg ⟨vector.1, vector.2⟩) * b) * o.scale + position.2)) : ℝ × ℝ) =
      Spec.along o minX maxY position vector a b := by
    intro a b
    unfold Spec.along
    have h1 : length vector * (Real.cos (Complex.arg ⟨vector.1, vector.2⟩) * a + -Real.sin (Complex.arg ⟨vector.1, vector.2⟩) * b) = a * vector.1 - b * vector.2 := by
      linear_combination a * hc - b * hs
    have h2 : length vector * (Real.sin (Complex.arg ⟨vector.1, vector.2⟩) * a + Real.cos (Complex.arg ⟨vector.1, vector.2⟩) * b) = a * vector.2 + b * vector.1 := by
      linear_combination a * hs + b * hc
    rw [h1, h2]
    ext <;> simp only <;> ring
  unfold arrow defaultArrow
  simp only [List.map_cons, List.map_nil]
  simp only [e]
  simp only [mul_one, zero_mul, ← neg_mul, mul_one_div, zero_div]

/-- C101: exactly the vectors longer than the tolerance are drawn, in order, each from its position to the position plus the scaled vector. Missing: without an arrow colour the export fails if
no vector is longer than the tolerance, see `no_arrows_violates`. -/
theorem arrows_drawn_partial (o : Options) (minX maxY : ℝ) (arrows : List ((ℝ × ℝ) × ℝ × ℝ)) (h : o.coloured = true ∨ ∃ a ∈ arrows, Spec.Long o a.2) :
    ∃ drawn, quiver o minX maxY arrows = some drawn ∧ ∃ kept : List ((ℝ × ℝ) × ℝ × ℝ), kept.Sublist arrows ∧ (∀ a, a ∈ kept ↔ a ∈ arrows ∧ Spec.Long o a.2) ∧
      (∀ a, Spec.Long o a.2 → kept.countP (· = a) = arrows.countP (· = a)) ∧
      drawn = kept.map fun a => (arrow o a.1 a.2).map (fun p => (p.1 - minX, maxY - p.2)) := by
  classical
  refine ⟨_, ?_, arrows.filter (fun a => decide (length a.2 > o.tolerance)), List.filter_sublist, fun a => ?_, fun a ha => ?_, rfl⟩
  · unfold quiver
    simp only
    rw [if_neg]
    · rintro ⟨h1, h2⟩
      rcases h with h | ⟨a, ha, hl⟩
      · rw [h] at h1
        cases h1
      · have : a ∈ arrows.filter (fun a => decide (length a.2 > o.tolerance)) := List.mem_filter.2 ⟨ha, decide_eq_true hl⟩
        have h2' : arrows.filter (fun a => decide (length a.2 > o.tolerance)) = [] := by
          convert h2
        rw [h2'] at this
        cases this
  · rw [List.mem_filter, decide_eq_true_eq]
    rfl
  · rw [List.countP_filter]
    apply List.countP_congr
    intro b hb
    simp only [Bool.and_eq_true, decide_eq_true_eq]
    constructor
    · exact fun h => h.1
    · rintro rfl
      exact ⟨rfl, ha⟩

/-- C101: the tip of an arrow is the position plus the scaled vector and its shaft starts at the position. -/
theorem arrow_tip (o : Options) (minX maxY : ℝ) (position vector : ℝ × ℝ) {p : ℝ × ℝ}
    (h : ((arrow o position vector).map (fun p => (p.1 - minX, maxY - p.2)))[3]? = some p) :
    p = (position.1 + o.scale * vector.1 - minX, maxY - (position.2 + o.scale * vector.2)) := by
  rw [arrow_shape] at h
  simp only [List.getElem?_cons_succ, List.getElem?_cons_zero, Option.some.injEq] at h
  rw [← h, Spec.along]
  ext <;> simp

/-- C101: without an arrow colour the export raises if no vector is longer than the tolerance, for example if all vectors vanish. -/
theorem no_arrows_violates (o : Options) (hc : o.coloured = false) (minX maxY : ℝ) (arrows : List ((ℝ × ℝ) × ℝ × ℝ)) (h : ∀ a ∈ arrows, ¬ Spec.Long o a.2) :
    quiver o minX maxY arrows = none := by
  classical
  unfold quiver
  simp only
  rw [if_pos]
  refine ⟨hc, List.filter_eq_nil_iff.2 fun a ha => ?_⟩
  rw [decide_eq_true_eq]
  exact h a ha

/-- C101: arrows do not count for the view box: whatever its width, a long enough arrow leaves the picture. -/
theorem arrow_outside_violates (o : Options) (hs : o.scale ≠ 0) (minX maxY width : ℝ) (position : ℝ × ℝ) :
    ∃ vector p, ((arrow o position vector).map (fun p => (p.1 - minX, maxY - p.2)))[3]? = some p ∧ width < p.1 := by
  refine ⟨((width + 1 + minX - position.1) / o.scale, 0), Spec.along o minX maxY position ((width + 1 + minX - position.1) / o.scale, 0) 1 0, ?_, ?_⟩
  · rw [arrow_shape]
    rfl
  · simp only [Spec.along]
    field_simp
    linarith

example : ∃ a ∈ [(((0 : ℝ), (0 : ℝ)), ((3 : ℝ), (4 : ℝ)))], Spec.Long ⟨1 / 10, 3 / 10, 1 / 2, 9 / 20, 0, 1, false⟩ a.2 := by
  refine ⟨_, List.mem_singleton_self _, ?_⟩
  unfold Spec.Long
  exact Real.sqrt_pos.2 (by norm_num)

end Splinepy.Quiver
