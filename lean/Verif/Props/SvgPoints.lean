import Verif.Model.SvgPoints
import Mathlib.Algebra.Order.Field.Rat

/-! C143: exported points have their own colours, labels and numbers. -/
namespace Splinepy.SvgPoints
open Splinepy.Svg (place)

variable {K C V : Type} [Field K] [LinearOrder K]

namespace Spec

/-- where a point of the plane is in the picture: shifted by the corner, with the vertical axis pointing down -/
def spot (minX maxY : K) (p : List K) : K × K := (p.getD 0 0 - minX, maxY - p.getD 1 0)

/-- one circle for each vertex, at its place, with the colour of its own value -/
def OwnColours (minX maxY : K) (vertices : List (List K)) (colour : ℕ → Option C) (circles : List (Circle K C)) : Prop :=
  circles.length = vertices.length ∧ ∀ (i : ℕ) (v : List K), vertices[i]? = some v → ∃ c, colour i = some c ∧ circles[i]? = some ⟨spot minX maxY v, c⟩

/-- one text for each point, at its place -/
def OwnTexts (minX maxY : K) (points : List (List K)) (text : ℕ → String) (labels : List (Label K)) : Prop :=
  labels.length = points.length ∧ ∀ (i : ℕ) (v : List K), points[i]? = some v → labels[i]? = some ⟨spot minX maxY v, text i⟩

end Spec

/-- C143 for vertices without data -/
theorem plain_vertices (minX maxY : K) (colourOf : V → C) (plain : C) (vertices : List (List K)) :
    Spec.OwnColours minX maxY vertices (fun _ => some plain) (vertexCircles minX maxY colourOf plain none vertices) := by
  constructor
  · simp [vertexCircles, colours]
  · intro i v hv
    refine ⟨plain, rfl, ?_⟩
    have hi : i < vertices.length := (List.getElem?_eq_some_iff.1 hv).1
    unfold vertexCircles colours
    dsimp only
    rw [List.getElem?_zipWith, hv, List.getElem?_replicate_of_lt hi]; rfl

/-- C143 for vertices with one value each -/
theorem coloured_vertices_partial (minX maxY : K) (colourOf : V → C) (plain : C) (vertices : List (List K)) (values : List V) (h : values.length = vertices.length) :
    Spec.OwnColours minX maxY vertices (fun i => values[i]?.map colourOf) (vertexCircles minX maxY colourOf plain (some (values.map fun v => [v])) vertices) := by
  have e : (values.map fun v => [v]).flatten = values := by
    induction values generalizing vertices with
    | nil => rfl
    | cons a l ih =>
      cases vertices with
      | nil => exact absurd h (by simp)
      | cons b m => simp only [List.map_cons, List.flatten_cons, ih m (by simpa using h)]; rfl
  constructor
  · simp [vertexCircles, colours, e, h]
  · intro i v hv
    have hi : i < values.length := by rw [h]; exact (List.getElem?_eq_some_iff.1 hv).1
    refine ⟨colourOf values[i], by simp [hi], ?_⟩
    unfold vertexCircles colours
    dsimp only
    rw [e, List.getElem?_zipWith, hv, List.getElem?_map, List.getElem?_eq_getElem hi]; rfl

/-- C143 is false for values with several components: the second vertex gets the colour of the second component of the first one. -/
theorem coloured_vertices_violates (minX maxY : K) (colourOf : V → C) (plain : C) (a b : V) (row : List V) (rows : List (List V)) (v w : List K) (vertices : List (List K)) :
    (vertexCircles minX maxY colourOf plain (some ((a :: b :: row) :: rows)) (v :: w :: vertices))[1]? = some ⟨Spec.spot minX maxY w, colourOf b⟩ := rfl

/-- C143: given labels, one for each vertex -/
theorem labels_partial (minX maxY : K) (texts : List String) (ids : Option Bool) (vertices : List (List K)) (h : texts.length = vertices.length) :
    ∃ l, vertexLabels minX maxY (some texts) ids vertices = some l ∧ Spec.OwnTexts minX maxY vertices (fun i => texts.getD i "") l := by
  refine ⟨_, rfl, by simp [h], ?_⟩
  intro i v hv
  have hi : i < texts.length := by rw [h]; exact (List.getElem?_eq_some_iff.1 hv).1
  rw [List.getElem?_zipWith, hv, List.getElem?_eq_getElem hi]
  simp [List.getD_eq_getElem?_getD, List.getElem?_eq_getElem hi, Spec.spot, place]

/-- C143 is false for too few labels: the last vertices silently have none. -/
theorem labels_violates (minX maxY : K) (texts : List String) (ids : Option Bool) (vertices : List (List K)) (h : texts.length < vertices.length) :
    ∃ l, vertexLabels minX maxY (some texts) ids vertices = some l ∧ l.length < vertices.length := by
  refine ⟨_, rfl, ?_⟩
  rw [List.length_zipWith]
  omega

/-- C143: numbers of the vertices if asked for, nothing if not mentioned -/
theorem ids_partial (minX maxY : K) (vertices : List (List K)) :
    (∃ l, vertexLabels minX maxY none (some true) vertices = some l ∧ Spec.OwnTexts minX maxY vertices toString l) ∧ vertexLabels minX maxY none none vertices = none := by
  refine ⟨⟨_, rfl, by simp, ?_⟩, rfl⟩
  intro i v hv
  have hi : i < vertices.length := (List.getElem?_eq_some_iff.1 hv).1
  rw [List.getElem?_zipWith, hv, List.getElem?_map, List.getElem?_range hi]; rfl

/-- C143 is false for `vertex_ids = False`: the numbers are exported nevertheless. -/
theorem ids_violates (minX maxY : K) (vertices : List (List K)) :
    ∃ l, vertexLabels minX maxY none (some false) vertices = some l ∧ Spec.OwnTexts minX maxY vertices toString l := (ids_partial minX maxY vertices).1

/-- C143 for the control points of splines: circles exactly if control points are wanted (the default); lines and numbers as asked for, otherwise as the circles; each control point has its own number -/
theorem control_parts (minX maxY : K) (colour : C) (o : Options) (mesh : List (List (K × K))) (points : List (List K)) :
    ((controlParts minX maxY colour o mesh points).1 = none ∨ (controlParts minX maxY colour o mesh points).1 = some mesh) ∧
    ((controlParts minX maxY colour o mesh points).1 = some mesh ↔ o.controlMesh = some true ∨ o.controlMesh = none ∧ o.controlPoints ≠ some false) ∧
    ((controlParts minX maxY colour o mesh points).2.1.isSome ↔ o.controlPoints ≠ some false) ∧
    (∀ l, (controlParts minX maxY colour o mesh points).2.1 = some l → Spec.OwnColours minX maxY points (fun _ => some colour) l) ∧
    ((controlParts minX maxY colour o mesh points).2.2.isSome ↔ o.controlPointIds = some true ∨ o.controlPointIds = none ∧ o.controlPoints ≠ some false) ∧
    (∀ l, (controlParts minX maxY colour o mesh points).2.2 = some l → Spec.OwnTexts minX maxY points toString l) := by
  obtain ⟨cp, cm, ci⟩ := o
  refine ⟨?_, ?_, ?_, ?_, ?_, ?_⟩
  · rcases cm with _ | _ | _ <;> rcases cp with _ | _ | _ <;> simp [controlParts]
  · rcases cm with _ | _ | _ <;> rcases cp with _ | _ | _ <;> simp [controlParts]
  · rcases cp with _ | _ | _ <;> simp [controlParts]
  · intro l hl
    have e : l = points.map fun p => ⟨place minX maxY p, colour⟩ := by
      rcases cp with _ | _ | _ <;> simp [controlParts] at hl <;> exact hl.symm
    subst e
    refine ⟨by simp, fun i v hv => ⟨colour, rfl, ?_⟩⟩
    rw [List.getElem?_map, hv]; rfl
  · rcases ci with _ | _ | _ <;> rcases cp with _ | _ | _ <;> simp [controlParts]
  · intro l hl
    have e : l = points.zipIdx.map fun p => ⟨place minX maxY p.1, toString p.2⟩ := by
      rcases ci with _ | _ | _ <;> rcases cp with _ | _ | _ <;> simp [controlParts] at hl <;> exact hl.symm
    subst e
    refine ⟨by simp, fun i v hv => ?_⟩
    rw [List.getElem?_map, List.getElem?_zipIdx, hv]; simp [Spec.spot, place]

example : vertexCircles (0 : ℚ) 5 (fun v : ℚ => if v < 1 then "blue" else "red") "grey" (some [[0], [2]]) [[1, 2], [3, 4]] = [⟨(1, 3), "blue"⟩, ⟨(3, 1), "red"⟩] := by decide +kernel

example : vertexCircles (0 : ℚ) 5 (fun v : ℚ => if v < 1 then "blue" else "red") "grey" (some [[0, 0], [2, 2]]) [[1, 2], [3, 4]] = [⟨(1, 3), "blue"⟩, ⟨(3, 1), "blue"⟩] := by decide +kernel

example : ["a", "b"].length = [[(1 : ℚ), 2], [3, 4]].length ∧ ["a"].length < [[(1 : ℚ), 2], [3, 4]].length := by decide

example : controlParts (0 : ℚ) 5 "red" ⟨none, some false, none⟩ [] [[1, 2], [3, 4]] = (none, some [⟨(1, 3), "red"⟩, ⟨(3, 1), "red"⟩], some [⟨(1, 3), "0"⟩, ⟨(3, 1), "1"⟩]) := by decide +kernel

end Splinepy.SvgPoints
