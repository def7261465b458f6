import Verif.Model.FieldData
import Verif.Props.Mesh

/-!
C103: data shown on a spline belong to the points where they are shown.
-/
namespace Splinepy.FieldData
open Splinepy.Index (Spline)
open Splinepy.Spec Splinepy.Mesh

set_option linter.unusedSectionVars false
variable {K : Type} [Field K] [LinearOrder K] [IsStrictOrderedRing K]

/-! ### Specification -/

/-- Evaluation of the first `dim` coordinates. -/
def Spec.evaluate (dim : ℕ) (s : Spline K (List K)) (u : List K) : List K := (List.range dim).map (point s u)

/-- Two splines have the same parametric bounds. -/
def Spec.SameBounds (s t : Spline K (List K)) : Prop :=
  (directions t).map (·.lower) = (directions s).map (·.lower) ∧ (directions t).map (·.upper) = (directions s).map (·.upper)

/-- Vertices and values belong together: there are parameters in the domain of the spline, one for each vertex, such that the vertex is the point of the spline and the value that of the data. -/
def Spec.Match (s : Spline K (List K)) (dim : ℕ) (data : List K → List K) (vertices values : List (List K)) : Prop :=
  ∃ parameters : List (List K), (∀ u ∈ parameters, InDomain s u) ∧ vertices = parameters.map (Spec.evaluate dim s) ∧ values = parameters.map data

/-! ### Proof -/

theorem firstFastest_length {α : Type} (A : List (List α)) : (firstFastest A).length = (A.map List.length).prod := by
  induction A with
  | nil => rfl
  | cons a A ih =>
    simp only [firstFastest, List.length_flatMap, List.length_map, List.map_const', List.sum_replicate, smul_eq_mul, ih, List.map_cons, List.prod_cons]
    ring

theorem zipWith_bounds (ds es : List (Direction K)) (h1 : es.map (·.lower) = ds.map (·.lower)) (h2 : es.map (·.upper) = ds.map (·.upper)) (res : List ℕ) :
    List.zipWith (fun d r => linspace (Direction.lower d) (Direction.upper d) r) es res = List.zipWith (fun d r => linspace (Direction.lower d) (Direction.upper d) r) ds res := by
  induction ds generalizing es res with
  | nil =>
    cases es with
    | nil => rfl
    | cons e es => simp at h1
  | cons d ds ih =>
    cases es with
    | nil => simp at h1
    | cons e es =>
      cases res with
      | nil => rfl
      | cons r res =>
        simp only [List.map_cons, List.cons.injEq] at h1 h2
        simp only [List.zipWith_cons_cons]
        rw [h1.1, h2.1, ih es h1.2 h2.2]

theorem zipWith_lists (ds : List (Direction K)) (res : List ℕ) :
    List.zipWith (fun f r => f r) (List.zipWith linspace (ds.map (·.lower)) (ds.map (·.upper))) res = List.zipWith (fun d r => linspace (Direction.lower d) (Direction.upper d) r) ds res := by
  induction ds generalizing res with
  | nil => simp
  | cons d ds ih =>
    cases res with
    | nil => simp
    | cons r res =>
      simp only [List.map_cons, List.zipWith_cons_cons]
      rw [ih]

theorem grid_in_domain {s : Spline K (List K)} (hs : ValidSpline s) {res : List ℕ} (hr : res.length = (directions s).length) :
    ∀ u ∈ firstFastest (List.zipWith (fun d r => linspace (Direction.lower d) (Direction.upper d) r) (directions s) res), InDomain s u := by
  intro u hu
  rw [mem_firstFastest] at hu
  unfold InDomain
  have hv := hs.dirs
  generalize directions s = ds at hu hv hr ⊢
  induction ds generalizing res u with
  | nil => cases res <;> simp_all
  | cons d ds ih =>
    cases res with
    | nil => simp at hr
    | cons r res =>
      rw [List.zipWith_cons_cons] at hu
      cases hu with
      | cons h1 h2 =>
        obtain ⟨k, hk, rfl⟩ := List.mem_map.1 h1
        exact .cons (parameter_mem (valid_le (hv d List.mem_cons_self)) (List.mem_range.1 hk)) (ih _ h2 (fun d hd => hv d (List.mem_cons_of_mem _ hd)) (by simpa using hr))

theorem shown_eq {s : Spline K (List K)} (dim : ℕ) {res : List ℕ} (hr : res.length = (directions s).length) (hd : (directions s).length = 1 ∨ (directions s).length = 2) :
    shownVertices (Spec.evaluate dim) res s =
      some ((firstFastest (List.zipWith (fun d r => linspace (Direction.lower d) (Direction.upper d) r) (directions s) res)).map (Spec.evaluate dim s)) := by
  unfold shownVertices
  rcases hd with h | h
  · rw [if_pos h]
    simp [curveEdges, sample]
  · rw [if_neg (by omega), if_pos h]
    obtain ⟨a, b, rfl⟩ := List.length_eq_two.1 (hr.trans h)
    simp [surfaceFaces, sample]

theorem query_eq (f : List K → List K) (ds : List (Direction K)) (hne : ds ≠ []) {res : List ℕ} (hr : res.length = ds.length) (dim : ℕ) :
    asVertexData (Spec.evaluate dim) res (.function f "on" (ds.map (·.lower)) (ds.map (·.upper))) =
      some ((firstFastest (List.zipWith (fun d r => linspace (Direction.lower d) (Direction.upper d) r) ds res)).map f) := by
  unfold asVertexData Index.uniformQuery
  simp only
  rw [if_pos (by simp [hr]), zipWith_lists, Index.cartesian_product_reverse]
  · rw [Option.bind_some, mapM_some, Option.bind_some]
    exact if_pos trivial
  · intro h
    have := congrArg List.length h
    rw [List.length_zipWith, hr, Nat.min_self] at this
    exact hne (List.length_eq_zero_iff.1 this)

/-- C103: a spline as data on a curve or a surface with the same bounds: each vertex shows the value of the data at the vertex's parameter. -/
theorem spline_field_matches {s data : Spline K (List K)} (hs : ValidSpline s) (hd : (directions s).length = 1 ∨ (directions s).length = 2) (hb : Spec.SameBounds s data) (dim : ℕ) {res : List ℕ}
    (hr : res.length = (directions s).length) :
    ∃ vertices values, shownVertices (Spec.evaluate dim) res s = some vertices ∧ asVertexData (Spec.evaluate dim) res (assign s (.spline data)) = some values ∧
      Spec.Match s dim (Spec.evaluate dim data) vertices values := by
  refine ⟨_, _, shown_eq dim hr hd, ?_, _, grid_in_domain hs hr, rfl, rfl⟩
  have hl : (directions data).length = (directions s).length := by simpa using congrArg List.length hb.1
  unfold asVertexData assign
  simp only
  rw [if_neg (by omega), sample, zipWith_bounds _ _ hb.1 hb.2]

/-- C103: a function as data on a curve or a surface: each vertex shows the value of the function at the vertex's parameter, if the function's second parameter has the name `on` and the bounds of the
spline have not changed since the assignment. -/
theorem function_field_matches_partial {s t : Spline K (List K)} (hs : ValidSpline s) (hd : (directions s).length = 1 ∨ (directions s).length = 2) (hb : Spec.SameBounds s t)
    (f : List K → List K) (lower upper : List K) (dim : ℕ) {res : List ℕ} (hr : res.length = (directions s).length) :
    ∃ vertices values, shownVertices (Spec.evaluate dim) res s = some vertices ∧ asVertexData (Spec.evaluate dim) res (assign t (.function f "on" lower upper)) = some values ∧
      Spec.Match s dim f vertices values := by
  refine ⟨_, _, shown_eq dim hr hd, ?_, _, grid_in_domain hs hr, rfl, rfl⟩
  unfold assign
  simp only
  rw [hb.1, hb.2, query_eq f (directions s) (by intro h; rw [h] at hd; simp at hd) hr]

/-- parameters of the six faces, one after another -/
def faceParameters (d0 d1 d2 : Direction K) (r0 r1 r2 : ℕ) : List (List K) :=
  let grid (a b : Direction K) (ra rb : ℕ) := firstFastest [linspace a.lower a.upper ra, linspace b.lower b.upper rb]
  (grid d1 d2 r1 r2).map (·.insertIdx 0 d0.lower) ++ (grid d1 d2 r1 r2).map (·.insertIdx 0 d0.upper) ++ (grid d0 d2 r0 r2).map (·.insertIdx 1 d1.lower) ++
    (grid d0 d2 r0 r2).map (·.insertIdx 1 d1.upper) ++ (grid d0 d1 r0 r1).map (·.insertIdx 2 d2.lower) ++ (grid d0 d1 r0 r1).map (·.insertIdx 2 d2.upper)

theorem face_vertices {s : Spline K (List K)} (hs : ValidSpline s) (h2 : 2 ≤ s.degrees.length) {b : ℕ} {d da db : Direction K} (hd : (directions s)[b / 2]? = some d)
    (hc : Boundary.Spec.ClampedAt d b) (he : (directions s).eraseIdx (b / 2) = [da, db]) (dim : ℕ) :
    ∃ q, Boundary.boundary s b = some q ∧ directions q = [da, db] ∧ ∀ ra rb,
      sample (Spec.evaluate dim q) [da, db] [ra, rb] =
        ((firstFastest [linspace da.lower da.upper ra, linspace db.lower db.upper rb]).map (·.insertIdx (b / 2) (Boundary.Spec.faceParameter d b))).map (Spec.evaluate dim s) ∧
      ∀ u ∈ (firstFastest [linspace da.lower da.upper ra, linspace db.lower db.upper rb]).map (·.insertIdx (b / 2) (Boundary.Spec.faceParameter d b)), InDomain s u := by
  obtain ⟨q, h1, hq, -, -, -, h3, h4⟩ := Boundary.boundary_restricts hs h2 hd hc
  refine ⟨q, h1, by rw [h3, he], fun ra rb => ?_⟩
  obtain ⟨hi, e⟩ := List.getElem?_eq_some_iff.1 hd
  have hdirs : directions s = (([da, db] : List (Direction K))).insertIdx (b / 2) d := by rw [← he, ← e, List.insertIdx_eraseIdx_getElem]
  have hb : b / 2 ≤ 2 := by
    have := congrArg List.length he
    rw [List.length_eraseIdx, if_pos hi] at this
    simp at this
    omega
  have hvd := hs.dirs d (by rw [← e]; exact List.getElem_mem _)
  have hva := hs.dirs da (List.mem_of_mem_eraseIdx (i := b / 2) (by rw [he]; simp))
  have hvb := hs.dirs db (List.mem_of_mem_eraseIdx (i := b / 2) (by rw [he]; simp))
  have hface : d.Contains (Boundary.Spec.faceParameter d b) := by
    have := valid_le hvd
    unfold Boundary.Spec.faceParameter
    split
    · exact ⟨le_rfl, this⟩
    · exact ⟨this, le_rfl⟩
  have hdom : ∀ u ∈ firstFastest [linspace da.lower da.upper ra, linspace db.lower db.upper rb], u.length = 2 ∧ InDomain s (u.insertIdx (b / 2) (Boundary.Spec.faceParameter d b)) := by
    intro u hu
    rw [mem_firstFastest] at hu
    cases hu with
    | cons a1 a2 =>
      cases a2 with
      | cons a3 a4 =>
        cases a4
        obtain ⟨i, hi, rfl⟩ := List.mem_map.1 a1
        obtain ⟨j, hj, rfl⟩ := List.mem_map.1 a3
        refine ⟨rfl, ?_⟩
        unfold InDomain
        rw [hdirs]
        refine forall₂_insertIdx ?_ hface
        exact List.Forall₂.cons (parameter_mem (valid_le hva) (List.mem_range.1 hi)) (List.Forall₂.cons (parameter_mem (valid_le hvb) (List.mem_range.1 hj)) List.Forall₂.nil)
  constructor
  · unfold sample
    rw [List.map_map]
    apply List.map_congr_left
    intro u hu
    obtain ⟨hl, hin⟩ := hdom u hu
    apply List.map_congr_left
    intro k _
    have h5 := h4 (u.insertIdx (b / 2) (Boundary.Spec.faceParameter d b)) hin (by
      rw [List.getD_eq_getElem _ _ (by rw [List.length_insertIdx, hl]; split <;> omega), List.getElem_insertIdx_self])
    rw [List.eraseIdx_insertIdx_self] at h5
    exact h5.2 k
  · intro u hu
    obtain ⟨v, hv, rfl⟩ := List.mem_map.1 hu
    exact (hdom v hv).2

theorem volume_vertices {s : Spline K (List K)} (hs : ValidSpline s) {d0 d1 d2 : Direction K} (hd : directions s = [d0, d1, d2])
    (hc : ∀ b < 6, ∀ d, (directions s)[b / 2]? = some d → Boundary.Spec.ClampedAt d b) (dim r0 r1 r2 : ℕ) :
    (volumeFaces (Spec.evaluate dim) s [r0, r1, r2]).map (·.vertices) = some ((faceParameters d0 d1 d2 r0 r1 r2).map (Spec.evaluate dim s)) ∧
      ∀ u ∈ faceParameters d0 d1 d2 r0 r1 r2, InDomain s u := by
  have hlen : s.degrees.length = 3 := by
    have h := congrArg List.length hd
    unfold directions at h
    cases hk : s.knotVectors with
    | none => rw [hk] at h; simpa using h
    | some kvs =>
      rw [hk] at h
      have := hs.knots kvs hk
      simp at h
      omega
  obtain ⟨q0, a0, b0, c0⟩ := face_vertices hs (by omega) (b := 0) (d := d0) (da := d1) (db := d2) (by rw [hd]; rfl) (hc 0 (by omega) _ (by rw [hd]; rfl)) (by rw [hd]; rfl) dim
  obtain ⟨q1, a1, b1, c1⟩ := face_vertices hs (by omega) (b := 1) (d := d0) (da := d1) (db := d2) (by rw [hd]; rfl) (hc 1 (by omega) _ (by rw [hd]; rfl)) (by rw [hd]; rfl) dim
  obtain ⟨q2, a2, b2, c2⟩ := face_vertices hs (by omega) (b := 2) (d := d1) (da := d0) (db := d2) (by rw [hd]; rfl) (hc 2 (by omega) _ (by rw [hd]; rfl)) (by rw [hd]; rfl) dim
  obtain ⟨q3, a3, b3, c3⟩ := face_vertices hs (by omega) (b := 3) (d := d1) (da := d0) (db := d2) (by rw [hd]; rfl) (hc 3 (by omega) _ (by rw [hd]; rfl)) (by rw [hd]; rfl) dim
  obtain ⟨q4, a4, b4, c4⟩ := face_vertices hs (by omega) (b := 4) (d := d2) (da := d0) (db := d1) (by rw [hd]; rfl) (hc 4 (by omega) _ (by rw [hd]; rfl)) (by rw [hd]; rfl) dim
  obtain ⟨q5, a5, b5, c5⟩ := face_vertices hs (by omega) (b := 5) (d := d2) (da := d0) (db := d1) (by rw [hd]; rfl) (hc 5 (by omega) _ (by rw [hd]; rfl)) (by rw [hd]; rfl) dim
  have hbs : Boundary.boundaries s [] = some [q0, q1, q2, q3, q4, q5] := by
    rw [Boundary.boundaries_listed]
    refine ⟨?_, by simp⟩
    rw [if_pos rfl, hlen]
    simp [List.range_succ, a0, a1, a2, a3, a4, a5]
  have hfp : (faceParameters d0 d1 d2 r0 r1 r2).map (Spec.evaluate dim s) =
      sample (Spec.evaluate dim q0) [d1, d2] [r1, r2] ++ (sample (Spec.evaluate dim q1) [d1, d2] [r1, r2] ++ (sample (Spec.evaluate dim q2) [d0, d2] [r0, r2] ++
        (sample (Spec.evaluate dim q3) [d0, d2] [r0, r2] ++ (sample (Spec.evaluate dim q4) [d0, d1] [r0, r1] ++ sample (Spec.evaluate dim q5) [d0, d1] [r0, r1])))) := by
    rw [(c0 r1 r2).1, (c1 r1 r2).1, (c2 r0 r2).1, (c3 r0 r2).1, (c4 r0 r1).1, (c5 r0 r1).1]
    simp only [faceParameters, List.map_append, List.append_assoc]
    rfl
  constructor
  · rw [hfp]
    unfold volumeFaces
    rw [hbs]
    simp only [Option.bind_some]
    by_cases hr : r0 = r1 ∧ r1 = r2
    · obtain ⟨rfl, rfl⟩ := hr
      rw [if_pos ⟨rfl, rfl⟩]
      simp [patchCells, b0, b1, b2, b3, b4, b5]
    · rw [if_neg hr]
      simp [concat, b0, b1, b2, b3, b4, b5, List.zipIdx]
  · intro u hu
    simp only [faceParameters, List.mem_append] at hu
    rcases hu with ((((hu | hu) | hu) | hu) | hu) | hu
    · exact (c0 r1 r2).2 u hu
    · exact (c1 r1 r2).2 u hu
    · exact (c2 r0 r2).2 u hu
    · exact (c3 r0 r2).2 u hu
    · exact (c4 r0 r1).2 u hu
    · exact (c5 r0 r1).2 u hu

/-- C103: a spline as data on a spline with three parametric directions and the same bounds (both clamped): each vertex shows the value of the data at the vertex's parameter. -/
theorem volume_field_matches {s data : Spline K (List K)} (hs : ValidSpline s) (hdata : ValidSpline data) (hd : (directions s).length = 3) (hb : Spec.SameBounds s data)
    (hc : ∀ b < 6, ∀ d, (directions s)[b / 2]? = some d → Boundary.Spec.ClampedAt d b)
    (hc' : ∀ b < 6, ∀ d, (directions data)[b / 2]? = some d → Boundary.Spec.ClampedAt d b) (dim : ℕ) {res : List ℕ} (hr : res.length = 3) :
    ∃ vertices values, shownVertices (Spec.evaluate dim) res s = some vertices ∧ asVertexData (Spec.evaluate dim) res (assign s (.spline data)) = some values ∧
      Spec.Match s dim (Spec.evaluate dim data) vertices values := by
  obtain ⟨d0, d1, d2, e⟩ := List.length_eq_three.1 hd
  have hl : (directions data).length = 3 := by rw [← hd]; simpa using congrArg List.length hb.1
  obtain ⟨e0, e1, e2, e'⟩ := List.length_eq_three.1 hl
  obtain ⟨r0, r1, r2, rfl⟩ := List.length_eq_three.1 hr
  obtain ⟨h1, h2⟩ := volume_vertices hs e hc dim r0 r1 r2
  obtain ⟨h3, -⟩ := volume_vertices hdata e' hc' dim r0 r1 r2
  have hsame : faceParameters e0 e1 e2 r0 r1 r2 = faceParameters d0 d1 d2 r0 r1 r2 := by
    obtain ⟨hb1, hb2⟩ := hb
    rw [e, e'] at hb1 hb2
    simp only [List.map_cons, List.map_nil, List.cons.injEq, and_true] at hb1 hb2
    obtain ⟨l0, l1, l2⟩ := hb1
    obtain ⟨u0, u1, u2⟩ := hb2
    simp only [faceParameters, l0, l1, l2, u0, u1, u2]
  refine ⟨_, _, ?_, ?_, _, h2, rfl, rfl⟩
  · unfold shownVertices
    rw [if_neg (by omega), if_neg (by omega)]
    exact h1
  · unfold asVertexData assign
    simp only
    rw [if_pos (by omega), h3, hsame]

/-- C103: a function as data on a spline with three parametric directions: it is evaluated on the whole grid, while only the boundary is shown, so that the numbers of values and vertices differ
for every resolution but six. -/
theorem volume_function_violates {s : Spline K (List K)} (hs : ValidSpline s) (hd : (directions s).length = 3)
    (hc : ∀ b < 6, ∀ d, (directions s)[b / 2]? = some d → Boundary.Spec.ClampedAt d b) (f : List K → List K) (lower upper : List K) (dim r : ℕ) (hr : 0 < r) (h6 : r ≠ 6) :
    ∃ vertices values, shownVertices (Spec.evaluate dim) [r, r, r] s = some vertices ∧ asVertexData (Spec.evaluate dim) [r, r, r] (assign s (.function f "on" lower upper)) = some values ∧
      vertices.length ≠ values.length := by
  obtain ⟨d0, d1, d2, e⟩ := List.length_eq_three.1 hd
  obtain ⟨h1, -⟩ := volume_vertices hs e hc dim r r r
  refine ⟨(faceParameters d0 d1 d2 r r r).map (Spec.evaluate dim s),
    (firstFastest (List.zipWith (fun d r => linspace (Direction.lower d) (Direction.upper d) r) (directions s) [r, r, r])).map f, ?_, ?_, ?_⟩
  · unfold shownVertices
    rw [if_neg (by omega), if_neg (by omega)]
    exact h1
  · unfold assign
    exact query_eq f (directions s) (by rw [e]; simp) (by simp [hd]) dim
  · have hl : ∀ (x y : Direction K), (firstFastest [linspace x.lower x.upper r, linspace y.lower y.upper r]).length = r * r := by
      intro x y
      simp [firstFastest_length, linspace]
    rw [e]
    simp only [List.length_map, faceParameters, List.length_append, hl, List.zipWith_cons_cons, List.zipWith_nil_left, firstFastest_length, List.map_cons, List.map_nil, List.prod_cons, List.prod_nil]
    simp only [linspace, List.length_map, List.length_range, mul_one]
    intro h
    apply h6
    have : r * r * 6 = r * r * r := by linarith
    have := Nat.eq_of_mul_eq_mul_left (Nat.mul_pos hr hr) this
    omega

/-- C103: a function with the documented parameters, `function(data, queries)`, can not be shown: it is called with the keyword argument `on`. -/
theorem argument_name_violates {s : Spline K (List K)} (f : List K → List K) (argument : String) (ha : argument ≠ "on") (lower upper : List K) (dim : ℕ) (res : List ℕ) :
    asVertexData (Spec.evaluate dim) res (assign s (.function f argument lower upper)) = none := by
  unfold assign asVertexData
  simp only
  cases Index.uniformQuery linspace ((directions s).map (·.lower)) ((directions s).map (·.upper)) res with
  | none => rfl
  | some rows =>
    rw [Option.bind_some]
    cases rows.mapM fun (row : List (Option K)) => row.mapM id with
    | none => rfl
    | some q => rw [Option.bind_some, if_neg ha]

/-- C103: the bounds are stored when the data are assigned: if the knots are changed afterwards, the function is evaluated at parameters of the old domain. -/
theorem stale_bounds_violates {s t : Spline K (List K)} {d e : Direction K} (hs : directions s = [d]) (ht : directions t = [e]) (hne : e.upper ≠ d.upper) (dim : ℕ) (lower upper : List K) :
    shownVertices (Spec.evaluate dim) [2] s = some [Spec.evaluate dim s [d.lower], Spec.evaluate dim s [d.upper]] ∧
      asVertexData (Spec.evaluate dim) [2] (assign t (.function (fun u => u) "on" lower upper)) = some [[e.lower], [e.upper]] ∧ [e.upper] ≠ [d.upper] := by
  refine ⟨?_, ?_, by simpa using hne⟩
  · rw [shown_eq dim (by rw [hs]; rfl) (by rw [hs]; simp), hs]
    simp [firstFastest, linspace, List.range_succ]
  · unfold assign
    simp only
    rw [query_eq _ (directions t) (by rw [ht]; simp) (by rw [ht]; rfl), ht]
    simp [firstFastest, linspace, List.range_succ]

/-- curves to which the theorems apply -/
example : ∃ s data : Spline ℚ (List ℚ), ValidSpline s ∧ (directions s).length = 1 ∧ Spec.SameBounds s data := by
  refine ⟨⟨[1], none, none, [[0, 0], [1, 2]]⟩, ⟨[2], none, none, [[1], [3], [2]]⟩, ⟨fun kvs h => (by cases h), fun d hd => ?_, by decide, fun ws h => (by cases h)⟩, rfl, rfl, rfl⟩
  simp only [directions, List.map_cons, List.map_nil, List.mem_singleton] at hd
  subst hd
  intro kv h
  cases h

end Splinepy.FieldData
