import Verif.Model.SvgExport
import Verif.Lemma.Spline
import Verif.Props.Index
import Verif.Props.ExtractSpline

/-!
C96: what `svg.export` draws lies in the view box. C97: control meshes. C98: scalar bars.
-/
namespace Splinepy.Svg
open Splinepy.Index Splinepy.Spec Finset

set_option linter.unusedSectionVars false
variable {K : Type} [Field K] [LinearOrder K] [IsStrictOrderedRing K]

/-! ### Specification -/

/-- The point lies in the picture, at least `margin` away from its border; `height` is the height of the part for splines. -/
def Spec.Inside (w : Window K) (height margin : K) (p : K × K) : Prop :=
  (margin ≤ p.1 ∧ p.1 ≤ w.width - margin) ∧ (margin ≤ p.2 ∧ p.2 ≤ height - margin)

/-- What is drawn of an object: its points (control points or vertices) and all points of the spline. -/
inductive Spec.Shown (w : Window K) : Object K → K × K → Prop
  | point {o : Object K} {p : List K} (hp : p ∈ o.points) : Spec.Shown w o (place w.minX w.maxY p)
  | spline {s : Spline K (List K)} {u : List K} (hu : InDomain s u) : Spec.Shown w (.spline s) (point s u 0 - w.minX, w.maxY - point s u 1)

/-! ### The spline lies within the bounds of its control points -/

/-- C96: all coordinates of a spline are between the smallest and the largest coordinate of its control points. -/
theorem spline_within_control_points {s : Spline K (List K)} (hs : ValidSpline s) {u : List K} (hu : InDomain s u) (k : ℕ) {lo hi : K}
    (h : ∀ p ∈ s.controlPoints, lo ≤ p.getD k 0 ∧ p.getD k 0 ≤ hi) : lo ≤ point s u k ∧ point s u k ≤ hi := by
  have hd := den_pos hs hu
  have hc : ∀ i ∈ range (netSize s).prod, lo ≤ (s.controlPoints.getD i []).getD k 0 ∧ (s.controlPoints.getD i []).getD k 0 ≤ hi := by
    intro i hi'
    rw [mem_range, ← hs.net] at hi'
    rw [List.getD_eq_getElem s.controlPoints _ hi']
    exact h _ (List.getElem_mem hi')
  have hn : ∀ i, i ∈ range (netSize s).prod → 0 ≤ basisProduct (basisValues s u) (digits (netSize s) i) * weightAt s i := by
    intro i hi'
    refine mul_nonneg (basisProduct_nonneg _ _ (basisValues_nonneg hs.dirs hu)) ?_
    unfold weightAt
    cases hw : s.weights with
    | none => exact zero_le_one
    | some ws =>
      obtain ⟨h1, h2⟩ := hs.weights ws hw
      rw [mem_range, ← hs.net, ← h1] at hi'
      simp only
      rw [List.getD_eq_getElem ws _ hi']
      exact (h2 _ (List.getElem_mem hi')).le
  unfold point
  rw [value_eq hs hu]
  constructor
  · rw [le_div_iff₀ hd]
    unfold num
    rw [mul_sum]
    apply sum_le_sum
    intro i hi'
    have := mul_le_mul_of_nonneg_left (hc i hi').1 (hn i hi')
    linarith
  · rw [div_le_iff₀ hd]
    unfold num
    rw [mul_sum]
    apply sum_le_sum
    intro i hi'
    have := mul_le_mul_of_nonneg_left (hc i hi').2 (hn i hi')
    linarith

/-! ### Bounds -/

theorem lowerBound_spec (objects : List (Object K)) (k : ℕ) (acc b : Option K)
    (h : objects.foldlM (fun acc o => (o.points.map (·.getD k 0)).min?.map fun b => fmin (some b) acc) acc = some b) :
    (∀ a ∈ acc, ∃ c ∈ b, c ≤ a) ∧ (∀ o ∈ objects, ∀ p ∈ o.points, ∃ c ∈ b, c ≤ p.getD k 0) ∧ (∀ c ∈ b, c ∈ acc ∨ ∃ o ∈ objects, ∃ p ∈ o.points, c = p.getD k 0) := by
  induction objects generalizing acc with
  | nil =>
    simp only [List.foldlM_nil, Option.pure_def, Option.some.injEq] at h
    subst h
    exact ⟨fun a ha => ⟨a, ha, le_refl _⟩, fun o ho => absurd ho (by simp), fun c hc => Or.inl hc⟩
  | cons o l ih =>
    rw [List.foldlM_cons, Option.bind_eq_bind, Option.bind_eq_some_iff] at h
    obtain ⟨acc', h1, h2⟩ := h
    rw [Option.map_eq_some_iff] at h1
    obtain ⟨m, hm, rfl⟩ := h1
    rw [List.min?_eq_some_iff] at hm
    obtain ⟨hm1, hm2⟩ := hm
    obtain ⟨i1, i2, i3⟩ := ih _ h2
    obtain ⟨x, hx, hxm, hxa⟩ : ∃ x, fmin (some m) acc = some x ∧ x ≤ m ∧ ∀ a ∈ acc, x ≤ a := by
      cases acc with
      | none => exact ⟨m, rfl, le_refl _, fun a ha => by cases ha⟩
      | some a => exact ⟨min m a, rfl, min_le_left _ _, fun a' ha' => by cases ha'; exact min_le_right _ _⟩
    obtain ⟨c, hc, hcx⟩ := i1 x hx
    refine ⟨fun a ha => ⟨c, hc, hcx.trans (hxa a ha)⟩, fun o' ho' p hp => ?_, fun c' hc' => ?_⟩
    · rcases List.mem_cons.1 ho' with rfl | ho'
      · exact ⟨c, hc, hcx.trans (hxm.trans (hm2 _ (List.mem_map.2 ⟨p, hp, rfl⟩)))⟩
      · exact i2 o' ho' p hp
    · rcases i3 c' hc' with h | ⟨o', ho', p, hp, e⟩
      · obtain ⟨p, hp, hpe⟩ := List.mem_map.1 hm1
        cases acc with
        | none =>
          cases h
          exact Or.inr ⟨o, List.mem_cons_self, p, hp, hpe.symm⟩
        | some a =>
          have h : c' = min m a := by
            have : fmin (some m) (some a) = some c' := h
            simpa [fmin] using this.symm
          rcases min_choice m a with e | e
          · rw [e] at h
            exact Or.inr ⟨o, List.mem_cons_self, p, hp, by rw [h, hpe]⟩
          · rw [e] at h
            exact Or.inl (by rw [h]; rfl)
      · exact Or.inr ⟨o', List.mem_cons_of_mem _ ho', p, hp, e⟩

theorem upperBound_spec (objects : List (Object K)) (k : ℕ) (acc b : Option K)
    (h : objects.foldlM (fun acc o => (o.points.map (·.getD k 0)).max?.map fun b => fmax (some b) acc) acc = some b) :
    (∀ a ∈ acc, ∃ c ∈ b, a ≤ c) ∧ (∀ o ∈ objects, ∀ p ∈ o.points, ∃ c ∈ b, p.getD k 0 ≤ c) ∧ (∀ c ∈ b, c ∈ acc ∨ ∃ o ∈ objects, ∃ p ∈ o.points, c = p.getD k 0) := by
  induction objects generalizing acc with
  | nil =>
    simp only [List.foldlM_nil, Option.pure_def, Option.some.injEq] at h
    subst h
    exact ⟨fun a ha => ⟨a, ha, le_refl _⟩, fun o ho => absurd ho (by simp), fun c hc => Or.inl hc⟩
  | cons o l ih =>
    rw [List.foldlM_cons, Option.bind_eq_bind, Option.bind_eq_some_iff] at h
    obtain ⟨acc', h1, h2⟩ := h
    rw [Option.map_eq_some_iff] at h1
    obtain ⟨m, hm, rfl⟩ := h1
    rw [List.max?_eq_some_iff] at hm
    obtain ⟨hm1, hm2⟩ := hm
    obtain ⟨i1, i2, i3⟩ := ih _ h2
    obtain ⟨x, hx, hxm, hxa⟩ : ∃ x, fmax (some m) acc = some x ∧ m ≤ x ∧ ∀ a ∈ acc, a ≤ x := by
      cases acc with
      | none => exact ⟨m, rfl, le_refl _, fun a ha => by cases ha⟩
      | some a => exact ⟨max m a, rfl, le_max_left _ _, fun a' ha' => by cases ha'; exact le_max_right _ _⟩
    obtain ⟨c, hc, hcx⟩ := i1 x hx
    refine ⟨fun a ha => ⟨c, hc, (hxa a ha).trans hcx⟩, fun o' ho' p hp => ?_, fun c' hc' => ?_⟩
    · rcases List.mem_cons.1 ho' with rfl | ho'
      · exact ⟨c, hc, ((hm2 _ (List.mem_map.2 ⟨p, hp, rfl⟩)).trans hxm).trans hcx⟩
      · exact i2 o' ho' p hp
    · rcases i3 c' hc' with h | ⟨o', ho', p, hp, e⟩
      · obtain ⟨p, hp, hpe⟩ := List.mem_map.1 hm1
        cases acc with
        | none =>
          cases h
          exact Or.inr ⟨o, List.mem_cons_self, p, hp, hpe.symm⟩
        | some a =>
          have h : c' = max m a := by
            have : fmax (some m) (some a) = some c' := h
            simpa [fmax] using this.symm
          rcases max_choice m a with e | e
          · rw [e] at h
            exact Or.inr ⟨o, List.mem_cons_self, p, hp, by rw [h, hpe]⟩
          · rw [e] at h
            exact Or.inl (by rw [h]; rfl)
      · exact Or.inr ⟨o', List.mem_cons_of_mem _ ho', p, hp, e⟩

/-- what the view box is made of -/
theorem window_spec {objects : List (Object K)} {margin : K} {bar : Option K} {w : Window K} (h : window objects margin bar = some w) :
    ∃ x0 x1 y0 y1, w = ⟨x0 - margin, y1 + margin, x1 - x0 + 2 * margin, (y1 - y0 + 2 * margin) * (1 + bar.getD 0 * 2)⟩ ∧
      (∀ o ∈ objects, ∀ p ∈ o.points, (x0 ≤ p.getD 0 0 ∧ p.getD 0 0 ≤ x1) ∧ (y0 ≤ p.getD 1 0 ∧ p.getD 1 0 ≤ y1)) ∧
      (∃ o ∈ objects, ∃ p ∈ o.points, x0 = p.getD 0 0) ∧ (∃ o ∈ objects, ∃ p ∈ o.points, x1 = p.getD 0 0) ∧
      (∃ o ∈ objects, ∃ p ∈ o.points, y0 = p.getD 1 0) ∧ (∃ o ∈ objects, ∃ p ∈ o.points, y1 = p.getD 1 0) := by
  unfold window at h
  split at h
  swap
  · cases h
  simp only [Option.bind_eq_some_iff, Option.map_eq_some_iff] at h
  obtain ⟨a0, h0, a1, h1, b0, g0, b1, g1, x0, rfl, x1, rfl, y0, rfl, y1, rfl, rfl⟩ := h
  obtain ⟨-, p0, q0⟩ := lowerBound_spec _ _ _ _ h0
  obtain ⟨-, p1, q1⟩ := upperBound_spec _ _ _ _ h1
  obtain ⟨-, r0, s0⟩ := lowerBound_spec _ _ _ _ g0
  obtain ⟨-, r1, s1⟩ := upperBound_spec _ _ _ _ g1
  refine ⟨x0, x1, y0, y1, ?_, fun o ho p hp => ?_, (q0 x0 rfl).resolve_left (by simp), (q1 x1 rfl).resolve_left (by simp), (s0 y0 rfl).resolve_left (by simp),
    (s1 y1 rfl).resolve_left (by simp)⟩
  · cases bar with
    | none => simp
    | some o => simp
  · obtain ⟨_, ⟨⟩, e0⟩ := p0 o ho p hp
    obtain ⟨_, ⟨⟩, e1⟩ := p1 o ho p hp
    obtain ⟨_, ⟨⟩, f0⟩ := r0 o ho p hp
    obtain ⟨_, ⟨⟩, f1⟩ := r1 o ho p hp
    exact ⟨⟨e0, e1⟩, f0, f1⟩

/-- C96: control points, vertices and all points of all splines are drawn within the picture, at least the margin away from its border. With a scalar bar the picture is the upper part of the
view box. -/
theorem drawn_in_view {objects : List (Object K)} (hv : ∀ s, Object.spline s ∈ objects → ValidSpline s) {margin : K} {bar : Option K} {w : Window K}
    (h : window objects margin bar = some w) :
    ∃ height, w.height = height * (1 + 2 * bar.getD 0) ∧ ∀ o ∈ objects, ∀ q, Spec.Shown w o q → Spec.Inside w height margin q := by
  obtain ⟨x0, x1, y0, y1, rfl, hb, -⟩ := window_spec h
  refine ⟨y1 - y0 + 2 * margin, by ring, fun o ho q hq => ?_⟩
  cases hq with
  | point hp =>
    obtain ⟨⟨a, b⟩, c, d⟩ := hb o ho _ hp
    unfold place
    refine ⟨⟨?_, ?_⟩, ?_, ?_⟩ <;> simp only <;> linarith
  | @spline s u hu =>
    obtain ⟨a, b⟩ := spline_within_control_points (hv s ho) hu 0 (fun p hp => (hb _ ho p hp).1)
    obtain ⟨c, d⟩ := spline_within_control_points (hv s ho) hu 1 (fun p hp => (hb _ ho p hp).2)
    refine ⟨⟨?_, ?_⟩, ?_, ?_⟩ <;> simp only <;> linarith

/-- C96: the picture is not larger than necessary: each of the four margins is reached by a control point or a vertex. -/
theorem view_tight {objects : List (Object K)} {margin : K} {bar : Option K} {w : Window K} (h : window objects margin bar = some w) :
    ∃ height, w.height = height * (1 + 2 * bar.getD 0) ∧
      (∃ o ∈ objects, ∃ p ∈ circles w.minX w.maxY o.points, p.1 = margin) ∧ (∃ o ∈ objects, ∃ p ∈ circles w.minX w.maxY o.points, p.1 = w.width - margin) ∧
      (∃ o ∈ objects, ∃ p ∈ circles w.minX w.maxY o.points, p.2 = margin) ∧ (∃ o ∈ objects, ∃ p ∈ circles w.minX w.maxY o.points, p.2 = height - margin) := by
  obtain ⟨x0, x1, y0, y1, rfl, -, ⟨o0, ho0, p0, hp0, e0⟩, ⟨o1, ho1, p1, hp1, e1⟩, ⟨o2, ho2, p2, hp2, e2⟩, o3, ho3, p3, hp3, e3⟩ := window_spec h
  refine ⟨y1 - y0 + 2 * margin, by ring, ⟨o0, ho0, _, List.mem_map.2 ⟨p0, hp0, rfl⟩, ?_⟩, ⟨o1, ho1, _, List.mem_map.2 ⟨p1, hp1, rfl⟩, ?_⟩,
    ⟨o3, ho3, _, List.mem_map.2 ⟨p3, hp3, rfl⟩, ?_⟩, o2, ho2, _, List.mem_map.2 ⟨p2, hp2, rfl⟩, ?_⟩ <;> unfold place <;> simp only <;> linarith

/-- C96: a view box is written for every list of objects that are accepted and have points. -/
theorem window_exists {objects : List (Object K)} (hne : objects ≠ []) (ha : ∀ o ∈ objects, o.accepted = true) (hp : ∀ o ∈ objects, o.points ≠ []) (margin : K) (bar : Option K) :
    ∃ w, window objects margin bar = some w := by
  have hl : ∀ k, ∃ b, lowerBound objects k = some (some b) := by
    intro k
    have : ∀ (l : List (Object K)) (acc : Option K), (∀ o ∈ l, o.points ≠ []) → (l ≠ [] ∨ acc ≠ none) →
        ∃ b, l.foldlM (fun acc o => (o.points.map (·.getD k 0)).min?.map fun b => fmin (some b) acc) acc = some (some b) := by
      intro l
      induction l with
      | nil =>
        intro acc _ h
        obtain ⟨b, rfl⟩ := Option.ne_none_iff_exists'.1 (h.resolve_left (by simp))
        exact ⟨b, rfl⟩
      | cons o l ih =>
        intro acc h _
        have hne : o.points.map (·.getD k 0) ≠ [] := by simpa using h o List.mem_cons_self
        obtain ⟨m, hm⟩ : ∃ m, (o.points.map (·.getD k 0)).min? = some m := by
          cases hc : (o.points.map (·.getD k 0)).min? with
          | none => exact absurd (List.min?_eq_none_iff.1 hc) hne
          | some m => exact ⟨m, rfl⟩
        rw [List.foldlM_cons, hm]
        exact ih _ (fun o' ho' => h o' (List.mem_cons_of_mem _ ho')) (Or.inr (by cases acc <;> simp [fmin]))
    exact this objects none hp (Or.inl hne)
  have hu : ∀ k, ∃ b, upperBound objects k = some (some b) := by
    intro k
    have : ∀ (l : List (Object K)) (acc : Option K), (∀ o ∈ l, o.points ≠ []) → (l ≠ [] ∨ acc ≠ none) →
        ∃ b, l.foldlM (fun acc o => (o.points.map (·.getD k 0)).max?.map fun b => fmax (some b) acc) acc = some (some b) := by
      intro l
      induction l with
      | nil =>
        intro acc _ h
        obtain ⟨b, rfl⟩ := Option.ne_none_iff_exists'.1 (h.resolve_left (by simp))
        exact ⟨b, rfl⟩
      | cons o l ih =>
        intro acc h _
        have hne : o.points.map (·.getD k 0) ≠ [] := by simpa using h o List.mem_cons_self
        obtain ⟨m, hm⟩ : ∃ m, (o.points.map (·.getD k 0)).max? = some m := by
          cases hc : (o.points.map (·.getD k 0)).max? with
          | none => exact absurd (List.max?_eq_none_iff.1 hc) hne
          | some m => exact ⟨m, rfl⟩
        rw [List.foldlM_cons, hm]
        exact ih _ (fun o' ho' => h o' (List.mem_cons_of_mem _ ho')) (Or.inr (by cases acc <;> simp [fmax]))
    exact this objects none hp (Or.inl hne)
  obtain ⟨x0, h0⟩ := hl 0
  obtain ⟨y0, g0⟩ := hl 1
  obtain ⟨x1, h1⟩ := hu 0
  obtain ⟨y1, g1⟩ := hu 1
  unfold window
  rw [if_pos (List.all_eq_true.2 ha), h0, h1, g0, g1]
  exact ⟨_, rfl⟩

example : ∃ w, window [Object.spline (⟨[1], none, none, [[0, 0], [2, 1]]⟩ : Spline ℚ (List ℚ)), .vertices [[3, -1]]] (1 / 10) (some (1 / 5)) = some w :=
  window_exists (by simp) (by simp [Object.accepted]) (by simp [Object.points]) _ _

/-! ### Control mesh -/

/-- C97: the control mesh of a curve is one polyline through its control points in order. -/
theorem curve_mesh (minX maxY : K) {s : Spline K (List K)} {n : ℕ} (hr : netSize s = [n]) :
    controlMesh minX maxY s = some [s.controlPoints.map (place minX maxY)] := by
  rw [← ExtractSpline.netSize_eq_resolutions] at hr
  unfold controlMesh
  rw [hr]

/-- C97: the control mesh of a surface consists of the polylines through all control points with the same second index, in the order of the first, and those with the same first index, in
the order of the second. -/
theorem surface_mesh (minX maxY : K) {s : Spline K (List K)} (hs : ValidSpline s) {n m : ℕ} (hr : netSize s = [n, m]) :
    controlMesh minX maxY s = some
      (((List.range m).map fun j => (List.range n).map fun i => place minX maxY (s.controlPoints.getD (i + n * j) [])) ++
        (List.range n).map fun i => (List.range m).map fun j => place minX maxY (s.controlPoints.getD (i + n * j) [])) := by
  have hn := hs.net
  rw [hr] at hn
  simp only [List.prod_cons, List.prod_nil, mul_one] at hn
  rw [← ExtractSpline.netSize_eq_resolutions] at hr
  have hget : ∀ i < n, ∀ j < m, i + n * j < s.controlPoints.length := by
    intro i hi j hj
    rw [hn]
    calc i + n * j < n + n * j := by omega
      _ = n * (j + 1) := by ring
      _ ≤ n * m := Nat.mul_le_mul_left _ (by omega)
  unfold controlMesh
  rw [hr]
  simp only
  rw [Grid.mapM_eq_some_map' (g := fun j => (List.range n).map fun i => place minX maxY (s.controlPoints.getD (i + n * j) [])),
    Grid.mapM_eq_some_map' (g := fun i => (List.range m).map fun j => place minX maxY (s.controlPoints.getD (i + n * j) []))]
  · rfl
  · intro i hi
    rw [List.mem_range] at hi
    rw [multi_index_get _ _ (.cons (fun c hc => by simp at hc; omega) (.cons (fun c hc => by simpa using hc) .nil))]
    have hf : (firstFastest [[i], List.range m]).map (flat [n, m]) = (List.range m).map fun j => i + n * j := by
      generalize List.range m = l
      induction l with
      | nil => rfl
      | cons a l ih =>
        simp only [firstFastest, List.map_cons, List.map_nil, List.flatMap_cons, List.flatMap_nil, List.append_nil, List.singleton_append, List.cons.injEq] at ih ⊢
        refine ⟨by simp [flat], ?_⟩
        simpa using ih
    rw [hf]
    simp only [Option.bind_some]
    rw [List.mapM_map]
    apply Grid.mapM_eq_some_map'
    intro j hj
    rw [List.mem_range] at hj
    rw [Function.comp, List.getElem?_eq_getElem (hget i hi j hj), List.getD_eq_getElem _ _ (hget i hi j hj)]
    rfl
  · intro j hj
    rw [List.mem_range] at hj
    rw [multi_index_get _ _ (.cons (fun c hc => by simpa using hc) (.cons (fun c hc => by simp at hc; omega) .nil))]
    have hf : (firstFastest [List.range n, [j]]).map (flat [n, m]) = (List.range n).map fun i => i + n * j := by
      simp [firstFastest, flat, List.flatMap]
    rw [hf]
    simp only [Option.bind_some]
    rw [List.mapM_map]
    apply Grid.mapM_eq_some_map'
    intro i hi
    rw [List.mem_range] at hi
    rw [Function.comp, List.getElem?_eq_getElem (hget i hi j hj), List.getD_eq_getElem _ _ (hget i hi j hj)]
    rfl

/-! ### Scalar bar -/

/-- C98: the scalar bar is in the middle of the strip below the picture, as wide as requested, and has the requested aspect ratio. -/
theorem scalar_bar_place {width height relWidth aspect offset pictureHeight : K} (hh : height = pictureHeight * (1 + 2 * offset)) (hw : 0 ≤ width) (hr : 0 ≤ relWidth) (ha : 0 < aspect)
    (ho : 0 < 1 + 2 * offset) {l t r b : K} (h : scalarBar width height relWidth aspect offset = (l, t, r, b)) :
    l + r = width ∧ r - l = relWidth * width ∧ b - t = (r - l) / aspect ∧ t + b = pictureHeight + height := by
  have hb : 0 ≤ width * (relWidth / aspect) := mul_nonneg hw (div_nonneg hr ha.le)
  have hwr : 0 ≤ width * relWidth := mul_nonneg hw hr
  unfold scalarBar at h
  simp only [Prod.mk.injEq] at h
  obtain ⟨rfl, rfl, rfl, rfl⟩ := h
  have e1 : width * (1 - relWidth) / 2 + (width * (1 + relWidth) / 2 - width * (1 - relWidth) / 2) = width * (1 + relWidth) / 2 := by ring
  have e2 : height * offset / (1 + 2 * offset) + width * (relWidth / aspect) / 2 + (height * offset / (1 + 2 * offset) - width * (relWidth / aspect) / 2 -
      (height * offset / (1 + 2 * offset) + width * (relWidth / aspect) / 2)) = height * offset / (1 + 2 * offset) - width * (relWidth / aspect) / 2 := by ring
  have e3 : height * offset / (1 + 2 * offset) = pictureHeight * offset := by
    rw [hh]
    field_simp
  rw [e1, e2, e3, min_eq_left (by linarith), max_eq_right (by linarith), min_eq_right (by linarith), max_eq_left (by linarith)]
  refine ⟨by ring, by ring, by ring, ?_⟩
  rw [hh]
  ring

/-- C98: the scalar bar does not cover the picture if and only if it is at most as high as the strip below the picture. -/
theorem scalar_bar_below_iff {width height relWidth aspect offset pictureHeight : K} (hh : height = pictureHeight * (1 + 2 * offset)) (hw : 0 ≤ width) (hr : 0 ≤ relWidth) (ha : 0 < aspect)
    (ho : 0 < 1 + 2 * offset) {l t r b : K} (h : scalarBar width height relWidth aspect offset = (l, t, r, b)) :
    pictureHeight ≤ t ∧ b ≤ height ↔ relWidth * width / aspect ≤ height - pictureHeight := by
  obtain ⟨-, h2, h3, h4⟩ := scalar_bar_place hh hw hr ha ho h
  rw [h2] at h3
  constructor
  · rintro ⟨h5, h6⟩
    linarith
  · intro h5
    constructor <;> linarith

/-- C98: with the default options the scalar bar covers part of the picture if that is more than five times as wide as high. -/
theorem scalar_bar_violates {width pictureHeight : K} (hp : 0 < pictureHeight) (hw : 5 * pictureHeight < width) {l t r b : K}
    (h : scalarBar width (pictureHeight * (1 + 2 * (1 / 10))) (4 / 10) 10 (1 / 10) = (l, t, r, b)) : t < pictureHeight := by
  obtain ⟨-, h2, h3, h4⟩ := scalar_bar_place rfl (by linarith) (by norm_num) (by norm_num) (by norm_num) h
  rw [h2] at h3
  linarith

/-- C98: the tick with the label `v` is where the bar, whose colour runs linearly from `vmin` to `vmax`, has the value `v`; the first tick is `vmin` at the left end and the last is `vmax` at
the right end. -/
theorem ticks_agree {width height relWidth aspect offset vmin vmax : K} (hw : 0 ≤ width) (hr : 0 ≤ relWidth) {l t r b : K}
    (h : scalarBar width height relWidth aspect offset = (l, t, r, b)) (n : ℕ) :
    (ticks width relWidth vmin vmax n).length = n ∧ (∀ q ∈ ticks width relWidth vmin vmax n, (q.2 - vmin) * (r - l) = (vmax - vmin) * (q.1 - l)) ∧
      (0 < n → (ticks width relWidth vmin vmax n)[0]? = some (l, vmin)) ∧ (1 < n → (ticks width relWidth vmin vmax n)[n - 1]? = some (r, vmax)) := by
  have hwr : 0 ≤ width * relWidth := mul_nonneg hw hr
  unfold scalarBar at h
  simp only [Prod.mk.injEq] at h
  obtain ⟨rfl, -, rfl, -⟩ := h
  have e1 : width * (1 - relWidth) / 2 + (width * (1 + relWidth) / 2 - width * (1 - relWidth) / 2) = width * (1 + relWidth) / 2 := by ring
  rw [e1, min_eq_left (by linarith), max_eq_right (by linarith), show width * (1 - relWidth) / 2 + (width * (1 + relWidth) / 2 - width * (1 - relWidth) / 2) = width * (1 + relWidth) / 2 by ring]
  have hz : ticks width relWidth vmin vmax n = (List.range n).map fun k : ℕ => (width * (1 - relWidth) / 2 + (k : K) * ((width * (1 + relWidth) / 2 - width * (1 - relWidth) / 2) / ((n - 1 : ℕ) : K)),
      vmin + (k : K) * ((vmax - vmin) / ((n - 1 : ℕ) : K))) := by
    unfold ticks Mesh.linspace
    rw [List.zip_map']
  rw [hz]
  refine ⟨by simp, ?_, fun hn => ?_, fun hn => ?_⟩
  · intro q hq
    obtain ⟨k, -, rfl⟩ := List.mem_map.1 hq
    simp only
    ring
  · rw [List.getElem?_map, List.getElem?_range hn]
    simp
  · rw [List.getElem?_map, List.getElem?_range (by omega)]
    have : ((n - 1 : ℕ) : K) ≠ 0 := by
      rw [Nat.cast_ne_zero]
      omega
    simp only [Option.map_some, Option.some.injEq, Prod.mk.injEq]
    constructor <;> field_simp <;> ring

example : scalarBar (2 : ℚ) (6 / 5) (2 / 5) 10 (1 / 10) = (3 / 5, 53 / 50, 7 / 5, 57 / 50) := by
  norm_num [scalarBar]

example : scalarBar (10 : ℚ) (6 / 5) (2 / 5) 10 (1 / 10) = (3, 9 / 10, 7, 13 / 10) := by
  norm_num [scalarBar]

end Splinepy.Svg
