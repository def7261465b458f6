import Verif.Props.Revolve
import Verif.Props.CreateView
import Mathlib.Analysis.Real.Pi.Bounds
import Mathlib.Analysis.Real.Pi.Irrational

/-!
C50, C67, C68, C69: arcs, circles, disks, spheres, plates and tori built by revolution.
-/
set_option linter.unusedSectionVars false
namespace Splinepy.Revolve
open Splinepy.Index (Spline)
open Splinepy.Create (dim withKnotVectors)
open Splinepy.Spec Finset

/-! ### arcs -/

/-- the spline of degree zero that is revolved -/
noncomputable def pointSpline (knots : Bool) (x y : ℝ) : Spline ℝ (List ℝ) :=
  ⟨[0], if knots then some [[0, 1]] else none, some [1], [[x, y]]⟩

/-- angle in radians -/
noncomputable def Spec.inRadians (a : ℝ) (degree : Bool) : ℝ := if degree then a * Real.pi / 180 else a

theorem arc_eq (radius angle : ℝ) (n : ℤ) (start : ℝ) (degree : Bool) : arc radius angle n start degree =
    (revolved (pointSpline (decide (|Spec.inRadians angle degree| ≥ Real.pi ∨ n > 1)) (radius * Real.cos (Spec.inRadians start degree))
      (radius * Real.sin (Spec.inRadians start degree))) none none (some (Spec.inRadians angle degree)) (some n) false).map fun a =>
    { a with degrees := a.degrees.drop 1, knotVectors := a.knotVectors.map (·.drop 1) } := by
  unfold arc Spec.inRadians radians pointSpline
  simp only
  congr 2
  by_cases h : |if degree = true then angle * Real.pi / 180 else angle| ≥ Real.pi ∨ n > 1
  · simp [h, withKnotVectors]
  · simp [h]

theorem pointSpline_directions (knots : Bool) (x y : ℝ) : directions (pointSpline knots x y) = [⟨0, if knots then some [0, 1] else none⟩] := by
  cases knots <;> rfl

theorem pointDirection_size (knots : Bool) : (⟨0, if knots then some [0, 1] else none⟩ : Direction ℝ).size = 1 := by cases knots <;> rfl

theorem pointDirection_basis (knots : Bool) : (⟨0, if knots then some [0, 1] else none⟩ : Direction ℝ).basis 0 0 = 1 := by
  cases knots
  · simp [Direction.basis, bernstein]
  · simp [Direction.basis, basisC, knotSeq]

theorem pointSpline_valid (knots : Bool) (x y : ℝ) : ValidSpline (pointSpline knots x y) := by
  refine ⟨?_, ?_, ?_, ?_⟩
  · intro kvs h
    cases knots
    · cases h
    · simp only [pointSpline, if_true, Option.some.injEq] at h
      subst h; rfl
  · rw [pointSpline_directions]
    intro d hd
    rw [List.mem_singleton] at hd
    subst hd
    intro kv h
    cases knots
    · cases h
    · simp only [if_true, Option.some.injEq] at h
      subst h
      refine ⟨by simp, by simp, by simp [Direction.lower, Direction.upper, knotSeq]⟩
  · unfold netSize
    rw [pointSpline_directions, List.map_singleton, pointDirection_size]
    rfl
  · intro ws h
    simp only [pointSpline, Option.some.injEq] at h
    subst h
    simp [pointSpline]

theorem pointSpline_domain (knots : Bool) (x y : ℝ) : InDomain (pointSpline knots x y) [0] := by
  unfold InDomain
  rw [pointSpline_directions]
  refine List.Forall₂.cons ?_ .nil
  cases knots <;> simp [Direction.Contains, Direction.lower, Direction.upper, knotSeq]

/-- weighted sums of a curve -/
theorem num_curve {P : Type} (a : Spline ℝ P) (d : Direction ℝ) (h : directions a = [d]) (v : ℝ) (c : ℕ → ℝ) :
    num a c [v] = ∑ l ∈ range d.size, d.basis v l * (weightAt a l * c l) := by
  have he : InDomain (⟨[], none, none, []⟩ : Spline ℝ P) [] := .nil
  have := num_append (⟨[], none, none, []⟩ : Spline ℝ P) a d (by rw [h]; rfl) (t := v) he c
  rw [List.nil_append] at this
  rw [this]
  apply sum_congr rfl
  intro l _
  simp [netSize, directions, basisValues, basisProduct, digits]

/-- a first direction with a single basis function can be dropped -/
theorem drop_first {a s' : Spline ℝ (List ℝ)} {knots : Bool} {d : Direction ℝ} (hs : ValidSpline s')
    (hd' : directions s' = [⟨0, if knots then some [0, 1] else none⟩, d]) (hd : directions a = [d]) (hw : a.weights = s'.weights)
    (hc : a.controlPoints = s'.controlPoints) (hk : ∀ kvs, a.knotVectors = some kvs → kvs.length = a.degrees.length) :
    ValidSpline a ∧ ∀ v, d.Contains v → InDomain a [v] ∧ ∀ k, point a [v] k = point s' [0, v] k := by
  have hv : ValidSpline a := by
    refine ⟨hk, ?_, ?_, ?_⟩
    · rw [hd]
      intro e he
      exact hs.dirs e (by rw [hd']; exact List.mem_cons_of_mem _ he)
    · have := hs.net
      unfold netSize at this ⊢
      rw [hd', List.map_cons, List.prod_cons, pointDirection_size, one_mul] at this
      rw [hc, hd, this]
    · intro ws h
      rw [hw] at h
      rw [hc]
      exact hs.weights ws h
  refine ⟨hv, fun v hvd => ?_⟩
  have h1 : InDomain a [v] := by unfold InDomain; rw [hd]; exact .cons hvd .nil
  have h0 : InDomain (pointSpline knots 0 0) [0] := pointSpline_domain _ _ _
  have h2 : InDomain s' [0, v] := by
    unfold InDomain at h0 ⊢
    rw [pointSpline_directions] at h0
    rw [hd']
    cases h0 with
    | cons h _ => exact .cons h (.cons hvd .nil)
  refine ⟨h1, fun k => ?_⟩
  have hnum : ∀ c, num a c [v] = num s' c [0, v] := by
    intro c
    have hap : directions s' = directions (pointSpline knots 0 0) ++ [d] := by rw [hd', pointSpline_directions]; rfl
    have e := num_append (pointSpline knots 0 0) s' d hap (t := v) h0 c
    rw [num_curve a d hd]
    rw [show ([0, v] : List ℝ) = [0] ++ [v] from rfl, e]
    apply sum_congr rfl
    intro l _
    have hn : netSize (pointSpline knots 0 0) = [1] := by unfold netSize; rw [pointSpline_directions, List.map_singleton, pointDirection_size]
    have hb : basisValues (pointSpline knots 0 0) [0] = [fun j => (⟨0, if knots then some [0, 1] else none⟩ : Direction ℝ).basis 0 j] := by
      unfold basisValues; rw [pointSpline_directions]; rfl
    rw [hn, hb]
    have hwt : weightAt a l = weightAt s' l := by unfold weightAt; rw [hw]
    simp [basisProduct, digits, pointDirection_basis, hwt]
  unfold point
  rw [value_eq hv h1, value_eq hs h2, hnum, hnum, hc]

/-- C67: an arc of any radius, angle, start angle and number of knot spans is a valid rational curve of degree two in the plane; its points have the radius
as distance to the origin and lie at the start angle plus an angle that goes from zero to the requested one without turning back. -/
theorem arc_evaluates {radius angle : ℝ} {nSpans : ℤ} {start : ℝ} {degree : Bool} {a : Spline ℝ (List ℝ)} (h : arc radius angle nSpans start degree = some a) :
    ValidSpline a ∧ Create.Spec.Rect a 2 ∧ a.degrees = [2] ∧ a.weights.isSome ∧
    ∃ (n : ℕ) (θ : ℝ → ℝ), (n : ℤ) = knotSpans (Spec.inRadians angle degree) (some nSpans) ∧ θ 0 = 0 ∧ θ n = Spec.inRadians angle degree ∧
      (0 ≤ Spec.inRadians angle degree → ∀ x y : ℝ, 0 ≤ x → x ≤ y → y ≤ n → θ x ≤ θ y) ∧
      (Spec.inRadians angle degree ≤ 0 → ∀ x y : ℝ, 0 ≤ x → x ≤ y → y ≤ n → θ y ≤ θ x) ∧
      ∀ v : ℝ, 0 ≤ v → v ≤ n → InDomain a [v] ∧ point a [v] 0 = radius * Real.cos (Spec.inRadians start degree + θ v) ∧
        point a [v] 1 = radius * Real.sin (Spec.inRadians start degree + θ v) := by
  rw [arc_eq] at h
  obtain ⟨s', hs', rfl⟩ := Option.map_eq_some_iff.1 h
  clear h
  set α := Spec.inRadians angle degree with hα
  set β := Spec.inRadians start degree with hβ
  generalize decide (|α| ≥ Real.pi ∨ nSpans > 1) = knots at hs'
  set s0 := pointSpline knots (radius * Real.cos β) (radius * Real.sin β) with hs0
  have hv0 : ValidSpline s0 := pointSpline_valid _ _ _
  have hr0 : Create.Spec.Rect s0 2 := ⟨by simp [hs0, pointSpline], by simp [hs0, pointSpline]⟩
  have hd0 : InDomain s0 [0] := pointSpline_domain _ _ _
  have htot : Spec.totalAngle (some α) false = α := rfl
  obtain ⟨e1, e2, e3, e4, -, n, θ, e6, e7, e8, e9, e10, e11, e12⟩ := revolved_evaluates hv0 hr0 (by rfl) hs'
  rw [htot] at e6 e8 e9 e10
  have hkn : s0.knotVectors.isSome = knots := by cases knots <;> rfl
  obtain ⟨k1, -⟩ := knotSpans_spec α (some nSpans)
  have hn1 : 1 ≤ n := by rw [← e6] at k1; exact_mod_cast k1
  rw [hkn] at e11
  have hdirs : directions s' = [⟨0, if knots then some [0, 1] else none⟩, spanDirection knots n] := by
    rw [e11, pointSpline_directions]; rfl
  have hdeg : s'.degrees = [0, 2] := by rw [e3]; rfl
  have hkv : (s'.knotVectors.map (·.drop 1)) = if knots then some [spanKnots n] else none := by
    have hkk := e1.knots
    rw [hdeg] at hkk
    unfold directions at hdirs
    rw [hdeg] at hdirs
    cases hk : s'.knotVectors with
    | none =>
      rw [hk] at hdirs
      cases knots
      · rfl
      · simp at hdirs
    | some kvs =>
      rw [hk] at hdirs
      obtain ⟨x, y, rfl⟩ := List.length_eq_two.1 (hkk _ hk)
      cases knots
      · simp at hdirs
      · simp [spanDirection] at hdirs
        simp [hdirs.2]
  set a : Spline ℝ (List ℝ) := { s' with degrees := s'.degrees.drop 1, knotVectors := s'.knotVectors.map (·.drop 1) } with ha
  have hadeg : a.degrees = [2] := by rw [ha]; simp [hdeg]
  have hakv : a.knotVectors = if knots then some [spanKnots n] else none := hkv
  have hdira : directions a = [spanDirection knots n] := by
    unfold directions
    rw [hakv, hadeg]
    cases knots <;> rfl
  have hkf : knots = false → n = 1 := by
    intro hkf
    have : ¬ (revolved s0 none none (some α) (some nSpans) false = none) := by rw [hs']; simp
    rw [revolved_rejects_iff hr0] at this
    push Not at this
    have hb := this.2.2.2.2
    rw [htot, ← e6] at hb
    have : s0.knotVectors = none := by rw [hs0, hkf]; rfl
    have := hb this
    have : (n : ℤ) ≤ 1 := this
    omega
  obtain ⟨f1, f2⟩ := drop_first (a := a) e1 hdirs hdira rfl rfl (by
    intro kvs hk
    rw [hakv] at hk
    rw [hadeg]
    cases knots
    · cases hk
    · simp only [if_true, Option.some.injEq] at hk
      subst hk; rfl)
  refine ⟨f1, e2, hadeg, e4, n, θ, e6, e7, e8, e9, e10, fun v h0 h1 => ?_⟩
  obtain ⟨g1, g2⟩ := e12 [0] hd0 v h0 h1
  have hcont : (spanDirection knots n : Direction ℝ).Contains v := by
    unfold Direction.Contains
    rw [spanDirection_lower _ _ hn1, spanDirection_upper _ _ hn1 hkf]
    exact ⟨h0, h1⟩
  obtain ⟨g3, g4⟩ := f2 v hcont
  have hp : ∀ k < 2, point s0 [0] k = ([radius * Real.cos β, radius * Real.sin β] : List ℝ).getD k 0 := by
    intro k hk
    have hsz : netSize s0 = [1] := by unfold netSize; rw [pointSpline_directions, List.map_singleton, pointDirection_size]
    have := value_affine (s := s0) (u := [0]) hv0 hd0 0 (([radius * Real.cos β, radius * Real.sin β] : List ℝ).getD k 0) (fun _ => 0)
      (fun i => (s0.controlPoints.getD i []).getD k 0) (by
        intro i hi
        rw [hsz] at hi
        have : i = 0 := by simpa using hi
        subst this
        rw [zero_mul, zero_add]
        rfl)
    rw [zero_mul, zero_add] at this
    exact this
  refine ⟨g3, ?_, ?_⟩
  · rw [g4, show ([0, v] : List ℝ) = [0] ++ [v] from rfl, g2 0 (by simp [Spec.resultDim])]
    simp only [Spec.resultDim, if_true, Spec.turned, centerAt, hp 0 (by norm_num), hp 1 (by norm_num)]
    simp only [List.getD_cons_zero, List.getD_cons_succ]
    rw [Real.cos_add]
    ring
  · rw [g4, show ([0, v] : List ℝ) = [0] ++ [v] from rfl, g2 1 (by simp [Spec.resultDim])]
    simp only [Spec.resultDim, if_true, Spec.turned, centerAt, hp 0 (by norm_num), hp 1 (by norm_num)]
    simp only [List.getD_cons_zero, List.getD_cons_succ]
    rw [Real.sin_add]
    ring

/-- C67: `arc` raises exactly for angles slightly smaller than half a turn for which no more than one knot span is requested. -/
theorem arc_rejects_iff (radius angle : ℝ) (nSpans : ℤ) (start : ℝ) (degree : Bool) : arc radius angle nSpans start degree = none ↔
    |Spec.inRadians angle degree| < Real.pi ∧ Real.pi < |Spec.inRadians angle degree| + tolerance ∧ nSpans ≤ 1 := by
  rw [arc_eq, Option.map_eq_none_iff, revolved_rejects_iff (n₀ := 2) ⟨by simp [pointSpline], by simp [pointSpline]⟩]
  have htot : Spec.totalAngle (some (Spec.inRadians angle degree)) false = Spec.inRadians angle degree := rfl
  rw [htot]
  set α := Spec.inRadians angle degree
  simp only [Spec.resultDim, reduceCtorEq, false_and, exists_false, false_or]
  have hkv : ∀ b : Bool, ∀ x y, (pointSpline b x y).knotVectors = none ↔ b = false := by intro b x y; cases b <;> simp [pointSpline]
  rw [hkv, decide_eq_false_iff_not]
  push Not
  obtain ⟨k1, k2, k3, k4, k5⟩ := knotSpans_spec α (some nSpans)
  constructor
  · rintro (h | h | h)
    · omega
    · omega
    · refine ⟨h.1.1, ?_, h.1.2⟩
      by_contra hle
      push Not at hle
      have := k5 1 (by simp; exact h.1.2) (by simpa using hle)
      omega
  · rintro ⟨h1, h2, h3⟩
    refine Or.inr (Or.inr ⟨⟨h1, h3⟩, ?_⟩)
    by_contra hle
    push Not at hle
    have h1' : knotSpans α (some nSpans) = 1 := le_antisymm hle k1
    unfold knotSpans at h1'
    simp only at h1'
    have ht : |tolerance| = tolerance := abs_of_pos tolerance_pos
    rw [ht] at h1'
    have hc : 1 < ⌈(|α| + tolerance) / Real.pi⌉ := by
      rw [Int.lt_ceil, lt_div_iff₀ Real.pi_pos]
      simpa using h2
    split at h1' <;> omega

/-- C67, where the code deviates: there are angles below half a turn for which the arc with the default number of knot spans cannot be created. -/
theorem arc_near_half_turn_violates : ∃ angle : ℝ, 0 < angle ∧ angle < Real.pi ∧ ∀ radius start, arc radius angle (-1) start false = none := by
  have ht := tolerance_pos
  have hp := Real.pi_gt_three
  have h1 : tolerance < 1 := by unfold tolerance; norm_num
  refine ⟨Real.pi - tolerance / 2, by linarith, by linarith, fun radius start => ?_⟩
  rw [arc_rejects_iff]
  simp only [Spec.inRadians, Bool.false_eq_true, if_false]
  rw [abs_of_pos (by linarith)]
  exact ⟨by linarith, by linarith, by norm_num⟩

/-- C67: `circle` always succeeds; it is a closed curve whose points have the radius as distance to the origin. -/
theorem circle_evaluates (radius : ℝ) (nSpans : ℤ) : ∃ a, circle radius nSpans = some a ∧ ValidSpline a ∧ a.degrees = [2] ∧ a.weights.isSome ∧
    ∃ n : ℕ, 3 ≤ n ∧ nSpans ≤ n ∧ (3 ≤ nSpans → (n : ℤ) = nSpans) ∧ (∀ v : ℝ, 0 ≤ v → v ≤ n → InDomain a [v] ∧ point a [v] 0 ^ 2 + point a [v] 1 ^ 2 = radius ^ 2) ∧
      point a [0] 0 = radius ∧ point a [0] 1 = 0 ∧ point a [(n : ℝ)] 0 = radius ∧ point a [(n : ℝ)] 1 = 0 := by
  have hpi := Real.pi_pos
  have h360 : Spec.inRadians 360 true = 2 * Real.pi := by simp [Spec.inRadians]; ring
  have hne : arc radius 360 nSpans 0 true ≠ none := by
    rw [Ne, arc_rejects_iff, h360, abs_of_pos (by linarith)]
    rintro ⟨h, -⟩
    linarith
  obtain ⟨a, ha⟩ := Option.ne_none_iff_exists'.1 hne
  obtain ⟨e1, -, e3, e4, n, θ, e6, e7, e8, -, -, e9⟩ := arc_evaluates ha
  rw [h360] at e6 e8
  obtain ⟨k1, k2, k3, k4, -⟩ := knotSpans_spec (2 * Real.pi) (some nSpans)
  rw [← e6] at k1 k2 k3 k4
  rw [abs_of_pos (by linarith)] at k2 k4
  have hn : 2 < n := by
    have : (2 : ℝ) < (n : ℤ) := lt_of_mul_lt_mul_right k2 hpi.le
    exact_mod_cast this
  have h0 : Spec.inRadians 0 true = 0 := by simp [Spec.inRadians]
  have hnr : (0 : ℝ) ≤ n := by positivity
  obtain ⟨-, p1, p2⟩ := e9 0 le_rfl hnr
  obtain ⟨-, q1, q2⟩ := e9 n hnr le_rfl
  rw [e7, h0] at p1 p2
  rw [e8, h0] at q1 q2
  refine ⟨a, ha, e1, e3, e4, n, hn, k3 _ rfl, fun h => ?_, fun v hv0 hv1 => ?_, ?_, ?_, ?_, ?_⟩
  · apply k4 nSpans rfl
    have h3 : (3 : ℝ) ≤ nSpans := by exact_mod_cast h
    have : 3 * Real.pi ≤ nSpans * Real.pi := mul_le_mul_of_nonneg_right h3 hpi.le
    have : tolerance < 1 := by unfold tolerance; norm_num
    have := Real.pi_gt_three
    linarith
  · obtain ⟨r1, r2, r3⟩ := e9 v hv0 hv1
    refine ⟨r1, ?_⟩
    rw [r2, r3]
    have := Real.sin_sq_add_cos_sq (Spec.inRadians 0 true + θ v)
    linear_combination radius ^ 2 * this
  · simpa using p1
  · simpa using p2
  · simpa using q1
  · simpa using q2

/-! ### disks and spheres -/

/-- the line that is revolved -/
noncomputable def radialLine (inner outer : ℝ) : Spline ℝ (List ℝ) := ⟨[1], some [[0, 0, 1, 1]], some [1, 1], [[inner, 0], [outer, 0]]⟩

theorem radialLine_evaluates (inner outer : ℝ) : ValidSpline (radialLine inner outer) ∧ ∀ t : ℝ, 0 ≤ t → t ≤ 1 → InDomain (radialLine inner outer) [t] ∧
    point (radialLine inner outer) [t] 0 = (1 - t) * inner + t * outer ∧ point (radialLine inner outer) [t] 1 = 0 := by
  set b : Spline ℝ (List ℝ) := ⟨[1], none, none, [[inner, 0], [outer, 0]]⟩ with hb
  have hbv : ValidSpline b := by
    refine ⟨?_, ?_, ?_, ?_⟩
    · intro kvs h; cases h
    · intro d hd
      simp only [hb, directions, List.map_cons, List.map_nil, List.mem_singleton] at hd
      subst hd
      intro kv h; cases h
    · simp [hb, netSize, directions, Direction.size]
    · intro ws h; cases h
  have he : radialLine inner outer = Create.withWeights (withKnotVectors b) := rfl
  obtain ⟨v1, -, v3⟩ := Create.withKnotVectors_evaluates hbv
  obtain ⟨w1, w2⟩ := Create.withWeights_evaluates v1 rfl
  rw [he]
  refine ⟨w1, fun t h0 h1 => ?_⟩
  have hd : InDomain b [t] := .cons ⟨h0, h1⟩ .nil
  obtain ⟨a1, a2⟩ := v3 _ hd
  obtain ⟨c1, c2⟩ := w2 _ a1
  refine ⟨c1, ?_, ?_⟩
  · rw [c2, a2]
    unfold point
    rw [Create.value_curve (d := ⟨1, none⟩) rfl rfl]
    simp [Direction.size, Direction.basis, bernstein, sum_range_succ, hb]
  · rw [c2, a2]
    unfold point
    rw [Create.value_curve (d := ⟨1, none⟩) rfl rfl]
    simp [Direction.size, Direction.basis, bernstein, sum_range_succ, hb]

/-- C67: for all radii, angles and numbers of knot spans `disk` succeeds; the distance of a point to the origin is interpolated linearly between the inner
and the outer radius by the first parameter and its direction is given by the second one. -/
theorem disk_evaluates (outer : ℝ) (inner : Option ℝ) (angle : ℝ) (nSpans : ℤ) (degree : Bool) : ∃ d, disk outer inner angle nSpans degree = some d ∧
    ValidSpline d ∧ Create.Spec.Rect d 2 ∧ d.degrees = [1, 2] ∧ d.weights.isSome ∧
    ∃ (n : ℕ) (θ : ℝ → ℝ), (n : ℤ) = knotSpans (Spec.inRadians angle degree) (some nSpans) ∧ θ 0 = 0 ∧ θ n = Spec.inRadians angle degree ∧
      (0 ≤ Spec.inRadians angle degree → ∀ x y : ℝ, 0 ≤ x → x ≤ y → y ≤ n → θ x ≤ θ y) ∧
      ∀ t v : ℝ, 0 ≤ t → t ≤ 1 → 0 ≤ v → v ≤ n → InDomain d [t, v] ∧ point d [t, v] 0 = ((1 - t) * inner.getD 0 + t * outer) * Real.cos (θ v) ∧
        point d [t, v] 1 = ((1 - t) * inner.getD 0 + t * outer) * Real.sin (θ v) := by
  have hr : Create.Spec.Rect (radialLine (inner.getD 0) outer) 2 := ⟨by simp [radialLine], by simp [radialLine]⟩
  have hne : disk outer inner angle nSpans degree ≠ none := by
    have : disk outer inner angle nSpans degree = revolved (radialLine (inner.getD 0) outer) none none (some angle) (some nSpans) degree := rfl
    rw [this, Ne, revolved_rejects_iff hr]
    simp [Spec.resultDim, radialLine]
  obtain ⟨d, hd⟩ := Option.ne_none_iff_exists'.1 hne
  have hd' : revolved (radialLine (inner.getD 0) outer) none none (some angle) (some nSpans) degree = some d := hd
  obtain ⟨l1, l2⟩ := radialLine_evaluates (inner.getD 0) outer
  obtain ⟨e1, e2, e3, e4, -, n, θ, e6, e7, e8, e9, -, e11, e12⟩ := revolved_evaluates l1 hr rfl hd'
  refine ⟨d, hd, e1, e2, e3, e4, n, θ, e6, e7, e8, e9, fun t v t0 t1 v0 v1 => ?_⟩
  obtain ⟨p1, p2, p3⟩ := l2 t t0 t1
  obtain ⟨q1, q2⟩ := e12 [t] p1 v v0 v1
  refine ⟨q1, ?_, ?_⟩
  · have := q2 0 (by simp [Spec.resultDim])
    simp only [Spec.resultDim, if_true, Spec.turned, centerAt, p2, p3] at this
    rw [show ([t, v] : List ℝ) = [t] ++ [v] from rfl, this]
    ring
  · have := q2 1 (by simp [Spec.resultDim])
    simp only [Spec.resultDim, if_true, Spec.turned, centerAt, p2, p3] at this
    rw [show ([t, v] : List ℝ) = [t] ++ [v] from rfl, this]
    ring

theorem withKnotVectors_points (s : Spline ℝ (List ℝ)) : (withKnotVectors s).controlPoints = s.controlPoints ∧ (withKnotVectors s).weights = s.weights ∧
    (withKnotVectors s).degrees = s.degrees := by
  unfold withKnotVectors
  split <;> simp

theorem point_pad {s : Spline ℝ (List ℝ)} {n : ℕ} (hs : ValidSpline s) (hr : Create.Spec.Rect s n) {u : List ℝ} (hu : InDomain s u) {k : ℕ} (hk : n ≤ k) :
    point s u k = 0 := by
  have := value_affine (s := s) (u := u) hs hu 0 0 (fun _ => 0) (fun i => (s.controlPoints.getD i []).getD k 0) (by
    intro i hi
    rw [zero_mul, zero_add]
    rw [← hs.net] at hi
    rw [List.getD_eq_getElem s.controlPoints _ hi, List.getD_eq_getElem?_getD, List.getElem?_eq_none]
    · rfl
    · rw [hr.2 _ (List.getElem_mem hi)]; exact hk)
  simpa [point] using this

/-- revolving a plane spline about the first axis -/
theorem revolved_first_axis {s : Spline ℝ (List ℝ)} (hs : ValidSpline s) (hr : Create.Spec.Rect s 2) (hw : s.weights.isSome) (hk : s.knotVectors.isSome)
    (center : Option (List ℝ)) (hc : center = none ∨ center = some [0, 0, 0]) (angle : ℝ) (nSpans : ℤ) (degree : Bool) :
    ∃ s', revolved s (some [1, 0, 0]) center (some angle) (some nSpans) degree = some s' ∧ ValidSpline s' ∧ Create.Spec.Rect s' 3 ∧ s'.degrees = s.degrees ++ [2] ∧
      s'.weights.isSome ∧ ∃ (n : ℕ) (θ : ℝ → ℝ), (n : ℤ) = knotSpans (Spec.inRadians angle degree) (some nSpans) ∧ θ 0 = 0 ∧ θ n = Spec.inRadians angle degree ∧
      (0 ≤ Spec.inRadians angle degree → ∀ x y : ℝ, 0 ≤ x → x ≤ y → y ≤ n → θ x ≤ θ y) ∧
      (∀ (u : List ℝ) (x : ℝ), InDomain s' (u ++ [x]) → x ≤ n) ∧
      ∀ u, InDomain s u → ∀ v : ℝ, 0 ≤ v → v ≤ n → InDomain s' (u ++ [v]) ∧ point s' (u ++ [v]) 0 = point s u 0 ∧
        point s' (u ++ [v]) 1 = point s u 1 * Real.cos (θ v) ∧ point s' (u ++ [v]) 2 = point s u 1 * Real.sin (θ v) := by
  have hn1 : norm [1, 0, 0] = 1 := by rw [norm_three]; simp
  have ht1 : tolerance < 1 := by unfold tolerance; norm_num
  have hne : revolved s (some [1, 0, 0]) center (some angle) (some nSpans) degree ≠ none := by
    rw [Ne, revolved_rejects_iff hr]
    simp only [Spec.resultDim, reduceCtorEq, false_and, false_or, Option.some.injEq, exists_eq_left', hn1]
    rintro (h | h | h | h)
    · rcases h with h | h
      · simp at h
      · linarith
    · obtain ⟨c, hc', h⟩ := h
      rcases hc with hc | hc
      · rw [hc] at hc'; cases hc'
      · rw [hc] at hc'
        cases hc'
        simp at h
    · simp at h
    · rw [h.1] at hk; cases hk
  obtain ⟨s', hs'⟩ := Option.ne_none_iff_exists'.1 hne
  obtain ⟨e1, e2, e3, e4, -, n, θ, e6, e7, e8, e9, -, e11, e12⟩ := revolved_evaluates hs hr hw hs'
  have hctr : ∀ k, centerAt center k = 0 := by
    intro k
    rcases hc with hc | hc
    · rw [hc]; rfl
    · rw [hc]
      unfold centerAt
      rcases k with _ | _ | _ | k <;> simp
  obtain ⟨k1, -⟩ := knotSpans_spec (Spec.totalAngle (some angle) degree) (some nSpans)
  have hn1 : 1 ≤ n := by rw [← e6] at k1; exact_mod_cast k1
  have hend : ∀ (u : List ℝ) (x : ℝ), InDomain s' (u ++ [x]) → x ≤ n := by
    intro u x hx
    unfold InDomain at hx
    rw [e11] at hx
    have hl := hx.length_eq
    simp only [List.length_append, List.length_singleton] at hl
    have := List.forall₂_drop (u.length) hx
    rw [List.drop_left, List.drop_left' (by omega)] at this
    cases this with
    | cons h _ =>
      have := h.2
      rwa [spanDirection_upper _ _ hn1 (by rw [hk]; simp)] at this
  refine ⟨s', hs', e1, e2, e3, e4, n, θ, e6, e7, e8, e9, hend, fun u hu v v0 v1 => ?_⟩
  obtain ⟨q1, q2⟩ := e12 u hu v v0 v1
  have h2 := point_pad hs hr hu le_rfl
  have hdim : Spec.resultDim (some [1, 0, 0]) 2 = 3 := rfl
  rw [hdim] at q2
  refine ⟨q1, ?_, ?_, ?_⟩
  · rw [q2 0 (by norm_num)]
    simp [Spec.turned, hctr, h2]
    ring
  · rw [q2 1 (by norm_num)]
    simp [Spec.turned, hctr, h2]
    ring
  · rw [q2 2 (by norm_num)]
    simp [Spec.turned, hctr, h2]
    ring

/-- C67: for all radii, angles and numbers of knot spans `sphere` succeeds; the distance of a point to the origin is interpolated linearly between the
inner and the outer radius by the first parameter, and the other ones are angles, the first one covering half a turn and the second one the requested angle. -/
theorem sphere_evaluates (outer : ℝ) (inner : Option ℝ) (angle : ℝ) (nSpans : ℤ) (degree : Bool) : ∃ s, sphere outer inner angle nSpans degree = some s ∧
    ValidSpline s ∧ Create.Spec.Rect s 3 ∧ s.degrees = [1, 2, 2] ∧
    ∃ (n m : ℕ) (φ θ : ℝ → ℝ), φ 0 = 0 ∧ φ n = Real.pi ∧ (∀ x y : ℝ, 0 ≤ x → x ≤ y → y ≤ n → φ x ≤ φ y) ∧ θ 0 = 0 ∧ θ m = Spec.inRadians angle degree ∧
      (0 ≤ Spec.inRadians angle degree → ∀ x y : ℝ, 0 ≤ x → x ≤ y → y ≤ m → θ x ≤ θ y) ∧
      ∀ t v w : ℝ, 0 ≤ t → t ≤ 1 → 0 ≤ v → v ≤ n → 0 ≤ w → w ≤ m → InDomain s [t, v, w] ∧
        point s [t, v, w] 0 = ((1 - t) * inner.getD 0 + t * outer) * Real.cos (φ v) ∧
        point s [t, v, w] 1 = ((1 - t) * inner.getD 0 + t * outer) * Real.sin (φ v) * Real.cos (θ w) ∧
        point s [t, v, w] 2 = ((1 - t) * inner.getD 0 + t * outer) * Real.sin (φ v) * Real.sin (θ w) ∧
        point s [t, v, w] 0 ^ 2 + point s [t, v, w] 1 ^ 2 + point s [t, v, w] 2 ^ 2 = ((1 - t) * inner.getD 0 + t * outer) ^ 2 := by
  obtain ⟨d, hd, d1, d2, d3, d4, n, φ, -, d6, d7, d8, d9⟩ := disk_evaluates outer inner 180 4 true
  obtain ⟨k1, k2, k3⟩ := Create.withKnotVectors_evaluates d1
  obtain ⟨c1, c2, c3⟩ := withKnotVectors_points d
  have hpi : Spec.inRadians 180 true = Real.pi := by simp [Spec.inRadians]
  rw [hpi] at d7 d8
  obtain ⟨s, hs, s1, s2, s3, -, m, θ, -, t1, t2, t3, -, t4⟩ := revolved_first_axis k1 (by unfold Create.Spec.Rect; rw [c1]; exact d2) (by rw [c2]; exact d4) k2 none (Or.inl rfl) angle nSpans degree
  refine ⟨s, by unfold sphere; rw [hd]; exact hs, s1, s2, by rw [s3, c3, d3]; rfl, n, m, φ, θ, d6, d7, d8 Real.pi_pos.le, t1, t2, t3, ?_⟩
  intro t v w t0 t1 v0 v1 w0 w1
  obtain ⟨a1, a2, a3⟩ := d9 t v t0 t1 v0 v1
  obtain ⟨b1, b2⟩ := k3 _ a1
  obtain ⟨f1, f2, f3, f4⟩ := t4 _ b1 w w0 w1
  rw [b2] at f2 f3 f4
  rw [a2] at f2
  rw [a3] at f3 f4
  refine ⟨f1, f2, f3, f4, ?_⟩
  rw [show ([t, v, w] : List ℝ) = [t, v] ++ [w] from rfl, f2, f3, f4]
  have g1 := Real.sin_sq_add_cos_sq (φ v)
  have g2 := Real.sin_sq_add_cos_sq (θ w)
  generalize (1 - t) * inner.getD 0 + t * outer = r
  linear_combination r ^ 2 * g1 + r ^ 2 * Real.sin (φ v) ^ 2 * g2

/-! ### tori -/

theorem moved_evaluates {s : Spline ℝ (List ℝ)} (hs : ValidSpline s) (hr : Create.Spec.Rect s 2) (R : ℝ) :
    ValidSpline ({ s with controlPoints := s.controlPoints.map fun p => p.modify 1 (· + R) } : Spline ℝ (List ℝ)) ∧
    Create.Spec.Rect ({ s with controlPoints := s.controlPoints.map fun p => p.modify 1 (· + R) } : Spline ℝ (List ℝ)) 2 ∧
    ∀ u, InDomain s u → InDomain ({ s with controlPoints := s.controlPoints.map fun p => p.modify 1 (· + R) } : Spline ℝ (List ℝ)) u ∧
      point ({ s with controlPoints := s.controlPoints.map fun p => p.modify 1 (· + R) } : Spline ℝ (List ℝ)) u 0 = point s u 0 ∧
      point ({ s with controlPoints := s.controlPoints.map fun p => p.modify 1 (· + R) } : Spline ℝ (List ℝ)) u 1 = point s u 1 + R := by
  refine ⟨⟨hs.knots, hs.dirs, ?_, ?_⟩, ⟨?_, ?_⟩, fun u hu => ⟨hu, ?_, ?_⟩⟩
  · simp only [List.length_map]; exact hs.net
  · simp only [List.length_map]; exact hs.weights
  · simp only [ne_eq, List.map_eq_nil_iff]; exact hr.1
  · intro p hp
    simp only [List.mem_map] at hp
    obtain ⟨q, hq, rfl⟩ := hp
    rw [List.length_modify]; exact hr.2 q hq
  · have h := value_affine (s := s) hs hu 1 0 (fun i => (s.controlPoints.getD i []).getD 0 0)
      (fun i => ((s.controlPoints.map fun p => p.modify 1 (· + R)).getD i []).getD 0 0) (by
        intro i hi
        rw [← hs.net] at hi
        obtain ⟨x, y, hxy⟩ := length_two (hr.2 _ (List.getElem_mem hi))
        rw [List.getD_eq_getElem s.controlPoints _ hi, List.getD_eq_getElem (l := List.map _ _) _ (by simpa using hi), List.getElem_map, hxy]
        simp)
    rw [one_mul, add_zero] at h
    exact h
  · have h := value_affine (s := s) hs hu 1 R (fun i => (s.controlPoints.getD i []).getD 1 0)
      (fun i => ((s.controlPoints.map fun p => p.modify 1 (· + R)).getD i []).getD 1 0) (by
        intro i hi
        rw [← hs.net] at hi
        obtain ⟨x, y, hxy⟩ := length_two (hr.2 _ (List.getElem_mem hi))
        rw [List.getD_eq_getElem s.controlPoints _ hi, List.getD_eq_getElem (l := List.map _ _) _ (by simpa using hi), List.getElem_map, hxy]
        simp)
    rw [one_mul] at h
    exact h

/-- C69, the part that holds: with a section that is a (part of a) disk, `torus` has the torus radius, section radii and angles that were asked for if the
angles are in radians, both given or both left out. -/
theorem torus_evaluates_partial (R outer : ℝ) (inner torusAngle sectionAngle : Option ℝ) (ns nt : ℤ) (degree : Bool)
    (hdisk : sectionAngle.isSome ∨ inner.isSome) (hdeg : degree = false ∨ (torusAngle.isSome ↔ sectionAngle.isSome)) :
    ∃ s, torus R outer inner torusAngle sectionAngle ns nt degree = some s ∧ ValidSpline s ∧ s.degrees = [1, 2, 2] ∧
    ∃ (n m : ℕ) (φ θ : ℝ → ℝ), φ 0 = 0 ∧ φ n = Spec.totalAngle sectionAngle degree ∧ θ 0 = 0 ∧ θ m = Spec.totalAngle torusAngle degree ∧
      (∀ (u : List ℝ) (x : ℝ), InDomain s (u ++ [x]) → x ≤ m) ∧
      ∀ t v w : ℝ, 0 ≤ t → t ≤ 1 → 0 ≤ v → v ≤ n → 0 ≤ w → w ≤ m → InDomain s [t, v, w] ∧
        point s [t, v, w] 0 = ((1 - t) * inner.getD 0 + t * outer) * Real.cos (φ v) ∧
        point s [t, v, w] 1 = (R + ((1 - t) * inner.getD 0 + t * outer) * Real.sin (φ v)) * Real.cos (θ w) ∧
        point s [t, v, w] 2 = (R + ((1 - t) * inner.getD 0 + t * outer) * Real.sin (φ v)) * Real.sin (θ w) := by
  set deg' : Bool := if sectionAngle.isNone then false else if torusAngle.isNone then false else degree with hdeg'
  have hS : Spec.inRadians (sectionAngle.getD (2 * Real.pi)) deg' = Spec.totalAngle sectionAngle degree := by
    rw [hdeg']
    cases sectionAngle with
    | none => simp [Spec.inRadians, Spec.totalAngle]
    | some b =>
      rcases hdeg with h | h
      · subst h
        cases torusAngle <;> simp [Spec.inRadians, Spec.totalAngle]
      · cases torusAngle with
        | none => simp at h
        | some a => simp [Spec.inRadians, Spec.totalAngle]
  have hT : Spec.inRadians (torusAngle.getD (2 * Real.pi)) deg' = Spec.totalAngle torusAngle degree := by
    rw [hdeg']
    cases torusAngle with
    | none => cases sectionAngle <;> simp [Spec.inRadians, Spec.totalAngle]
    | some a =>
      rcases hdeg with h | h
      · subst h
        cases sectionAngle <;> simp [Spec.inRadians, Spec.totalAngle]
      · cases sectionAngle with
        | none => simp at h
        | some b => simp [Spec.inRadians, Spec.totalAngle]
  obtain ⟨d, hd, d1, d2, d3, d4, n, φ, -, d6, d7, -, d9⟩ := disk_evaluates outer (some (inner.getD 0)) (sectionAngle.getD (2 * Real.pi)) ns deg'
  obtain ⟨m1, m2, m3⟩ := moved_evaluates d1 d2 R
  have hdk : d.knotVectors.isSome := by
    have hh : disk outer (some (inner.getD 0)) (sectionAngle.getD (2 * Real.pi)) ns deg' =
      revolved (radialLine (inner.getD 0) outer) none none (some (sectionAngle.getD (2 * Real.pi))) (some ns) deg' := rfl
    rw [hh] at hd
    obtain ⟨_, _, _, _, _, _, _, _, _, _, _, _, hb⟩ := revolved_some (n₀ := 2) ⟨by simp [radialLine], by simp [radialLine]⟩ hd
    rw [hb]; rfl
  obtain ⟨s, hs, s1, -, s3, -, m, θ, -, t1, t2, -, t3, t4⟩ := revolved_first_axis m1 m2 d4 hdk (some [0, 0, 0]) (Or.inr rfl) (torusAngle.getD (2 * Real.pi)) nt deg'
  have hnp : ¬ (sectionAngle.isNone = true ∧ inner.isNone = true) := by
    rcases hdisk with h | h
    · cases sectionAngle with
      | none => cases h
      | some b => simp
    · cases inner with
      | none => cases h
      | some b => simp
  refine ⟨s, ?_, s1, by rw [s3, d3]; rfl, n, m, φ, θ, d6, by rw [d7, hS], t1, by rw [t2, hT], t3, ?_⟩
  · unfold torus
    simp only
    rw [if_neg hnp]
    rw [← hdeg', hd]
    exact hs
  · intro t v w t0 t1 v0 v1 w0 w1
    obtain ⟨a1, a2, a3⟩ := d9 t v t0 t1 v0 v1
    obtain ⟨b1, b2, b3⟩ := m3 _ a1
    obtain ⟨f1, f2, f3, f4⟩ := t4 _ b1 w w0 w1
    rw [b2, a2] at f2
    rw [b3, a3] at f3 f4
    refine ⟨f1, f2, ?_, ?_⟩
    · exact f3.trans (by rw [Option.getD_some]; ring)
    · exact f4.trans (by rw [Option.getD_some]; ring)

/-- C69, where the code deviates: if one of the angles is left out, the other one is not converted, even if angles are declared to be in degrees. -/
theorem torus_degrees_ignored_violates (R outer a : ℝ) (inner : Option ℝ) (ns nt : ℤ) :
    torus R outer inner (some a) none ns nt true = torus R outer inner (some a) none ns nt false ∧
    torus R outer inner none (some a) ns nt true = torus R outer inner none (some a) ns nt false := ⟨rfl, rfl⟩

/-- ... for example, what should be a quarter of a tube does not end at a right angle. -/
theorem torus_quarter_violates : ∃ s, torus 2 1 (some 0) (some 90) none 4 4 true = some s ∧ ValidSpline s ∧
    ∃ m : ℝ, (∀ (u : List ℝ) (x : ℝ), InDomain s (u ++ [x]) → x ≤ m) ∧ InDomain s [0, 0, m] ∧ point s [0, 0, m] 1 ≠ 2 * Real.cos (90 * Real.pi / 180) := by
  rw [(torus_degrees_ignored_violates 2 1 90 (some 0) 4 4).1]
  obtain ⟨s, hs, s1, s2, n, m, φ, θ, e1, e2, e3, e4, e5, e6⟩ := torus_evaluates_partial 2 1 (some 0) (some 90) none 4 4 false (Or.inr rfl) (Or.inl rfl)
  refine ⟨s, hs, s1, m, e5, ?_⟩
  obtain ⟨a1, a2, a3, a4⟩ := e6 0 0 m le_rfl zero_le_one le_rfl (Nat.cast_nonneg _) (Nat.cast_nonneg _) le_rfl
  refine ⟨a1, ?_⟩
  rw [a3, e4]
  have h90 : Spec.totalAngle (some 90) false = 90 := rfl
  rw [h90, show (90 : ℝ) * Real.pi / 180 = Real.pi / 2 by ring, Real.cos_pi_div_two]
  simp only [sub_zero, Option.getD_some, zero_mul, mul_zero, add_zero, ne_eq, mul_eq_zero, OfNat.ofNat_ne_zero, false_or]
  intro hc
  rw [Real.cos_eq_zero_iff] at hc
  obtain ⟨k, hk⟩ := hc
  apply irrational_pi
  refine ⟨180 / (2 * k + 1), ?_⟩
  have : (2 * (k : ℝ) + 1) ≠ 0 := by
    intro h
    rw [h] at hk
    norm_num at hk
  push_cast
  rw [div_eq_iff this]
  linarith

/-- C69, where the code deviates: a solid torus of less than half a turn cannot be created if more than one knot span is used, as it is by default. -/
theorem torus_solid_section_violates (R outer a : ℝ) (ha : |a| < Real.pi) (ns nt : ℤ) (hn : 1 < nt) (degree : Bool) :
    torus R outer none (some a) none ns nt degree = none := by
  unfold torus
  simp only [Option.isNone_some, Option.isNone_none, and_self, if_true, Option.getD_some, not_le.2 ha, if_false, Option.bind_some]
  rw [revolved_rejects_iff (n₀ := 2)]
  · right; right; right; right
    refine ⟨rfl, ?_⟩
    exact lt_of_lt_of_le hn ((knotSpans_spec _ _).2.2.1 nt rfl)
  · refine ⟨by simp [plate], ?_⟩
    intro p hp
    simp only [plate, List.map_cons, List.map_nil, List.mem_cons, List.not_mem_nil, or_false] at hp
    rcases hp with h | h | h | h | h | h | h | h | h <;> rw [h] <;> simp

/-! ### plates -/

theorem circlePatch_num (s : Spline ℝ (List ℝ)) (hd : directions s = [⟨2, none⟩, ⟨2, none⟩]) (c : ℕ → ℝ) {x y : ℝ} (h0 : 0 ≤ x) (h1 : x ≤ 1) :
    num s c [x, y] = ∑ l ∈ range 3, bernstein 2 l 0 1 y * ∑ g ∈ range 3, bernstein 2 g 0 1 x * (weightAt s (g + 3 * l) * c (g + 3 * l)) := by
  have he : InDomain (⟨[2], none, none, []⟩ : Spline ℝ (List ℝ)) [x] := .cons ⟨h0, h1⟩ .nil
  have := num_append (⟨[2], none, none, []⟩ : Spline ℝ (List ℝ)) s ⟨2, none⟩ (by rw [hd]; rfl) (t := y) he c
  rw [show ([x, y] : List ℝ) = [x] ++ [y] from rfl, this]
  apply sum_congr rfl
  intro l _
  simp only [Direction.basis, netSize, directions, List.map_cons, List.map_nil, Direction.size, List.prod_cons, List.prod_nil]
  congr 1
  apply sum_congr rfl
  intro g hg
  have hg3 : g < 3 := mem_range.1 hg
  simp [basisValues, directions, basisProduct, digits, Direction.basis, Nat.mod_eq_of_lt hg3]

theorem surfaceCircle_valid (r : ℝ) : ValidSpline (surfaceCircle r) := by
  refine ⟨?_, ?_, ?_, ?_⟩
  · intro kvs h; cases h
  · intro d hd
    simp only [directions, surfaceCircle, List.map_cons, List.map_nil, List.mem_cons, List.not_mem_nil, or_false, or_self] at hd
    subst hd
    intro kv h; cases h
  · simp [surfaceCircle, netSize, directions, Direction.size]
  · intro ws h
    simp only [surfaceCircle, Option.some.injEq] at h
    subst h
    refine ⟨by simp [surfaceCircle], ?_⟩
    intro w hw
    have : 0 < 1 / Real.sqrt 2 := by positivity
    simp only [List.mem_cons, List.not_mem_nil, or_false] at hw
    rcases hw with h | h | h | h | h | h | h | h | h <;> rw [h] <;> first | exact one_pos | exact this

/-- C68: the boundary of the patch created by `surface_circle` is the circle of the given radius. -/
theorem surfaceCircle_boundary (r : ℝ) {x y : ℝ} (x0 : 0 ≤ x) (x1 : x ≤ 1) (y0 : 0 ≤ y) (y1 : y ≤ 1) (hb : x = 0 ∨ x = 1 ∨ y = 0 ∨ y = 1) :
    InDomain (surfaceCircle r) [x, y] ∧ point (surfaceCircle r) [x, y] 0 ^ 2 + point (surfaceCircle r) [x, y] 1 ^ 2 = r ^ 2 := by
  have hv := surfaceCircle_valid r
  have hd : InDomain (surfaceCircle r) [x, y] := .cons ⟨x0, x1⟩ (.cons ⟨y0, y1⟩ .nil)
  refine ⟨hd, ?_⟩
  have hpos := den_pos hv hd
  unfold point
  rw [value_eq hv hd, value_eq hv hd, div_pow, div_pow, ← add_div, div_eq_iff (pow_ne_zero _ hpos.ne')]
  have hw2 : (1 / Real.sqrt 2) ^ 2 = 1 / 2 := by rw [div_pow, Real.sq_sqrt (by norm_num)]; norm_num
  rw [circlePatch_num _ rfl _ x0 x1, circlePatch_num _ rfl _ x0 x1, circlePatch_num _ rfl _ x0 x1]
  simp only [sum_range_succ, sum_range_zero, weightAt, surfaceCircle, bernstein]
  generalize 1 / Real.sqrt 2 = w at hw2
  simp
  have hw4 : w ^ 4 = 1 / 4 := by rw [show w ^ 4 = (w ^ 2) ^ 2 by ring, hw2]; norm_num
  have hw3 : w ^ 3 = w / 2 := by rw [show w ^ 3 = w ^ 2 * w by ring, hw2]; ring
  rcases hb with rfl | rfl | rfl | rfl <;> ring_nf <;> simp only [hw2, hw4, hw3] <;> ring

theorem plate_eq (r : ℝ) : plate r = surfaceCircle (r * (1 / Real.sqrt 2)) := by
  unfold plate surfaceCircle
  have hw2 : r * (1 / Real.sqrt 2) * (1 / Real.sqrt 2) = r / 2 := by
    have : (1 / Real.sqrt 2) ^ 2 = 1 / 2 := by rw [div_pow, Real.sq_sqrt (by norm_num)]; norm_num
    linear_combination r * this
  simp only [hw2, List.map_cons, List.map_nil]
  norm_num
  ring_nf
  simp

/-- C68, where the code deviates: the boundary of a plate is a circle, but its radius is smaller than the given one by the factor `√2`. -/
theorem plate_radius_violates (r : ℝ) {x y : ℝ} (x0 : 0 ≤ x) (x1 : x ≤ 1) (y0 : 0 ≤ y) (y1 : y ≤ 1) (hb : x = 0 ∨ x = 1 ∨ y = 0 ∨ y = 1) :
    point (plate r) [x, y] 0 ^ 2 + point (plate r) [x, y] 1 ^ 2 = r ^ 2 / 2 := by
  rw [plate_eq, (surfaceCircle_boundary _ x0 x1 y0 y1 hb).2, mul_pow, div_pow, Real.sq_sqrt (by norm_num)]
  ring

end Splinepy.Revolve
