import Verif.Model.CliShow
import Verif.Props.Display

/-!
C145: the command `splinepy show`.
-/
namespace Splinepy.CliShow
open Splinepy.Display Splinepy.ShowOptions

/-- the element an option of the command is about -/
inductive Spec.Hides (c : Command) : Element → Prop
  | knots : c.noKnotVectors = true → Hides c .knots
  | controlPoints : c.noControlPoints = true → Hides c .controlPoints
  | ids : c.noCpIds = true → Hides c .controlPointIds
  | mesh : c.noControlMesh = true → Hides c .controlMesh

theorem setOptions_get (c : Command) (s : Subject) :
    (setOptions c s).options "knots" = some (!c.noKnotVectors) ∧ (setOptions c s).options "control_points" = some (!c.noControlPoints) ∧
    (setOptions c s).options "control_point_ids" = some (!c.noCpIds) ∧ (setOptions c s).options "control_mesh" = some (!c.noControlMesh) := by
  have hv : ∀ k ∈ ["knots", "control_points", "control_point_ids", "control_mesh"], valid s.multipatch k = true := by cases s.multipatch <;> decide
  simp only [setOptions]
  refine ⟨?_, ?_, ?_, ?_⟩ <;> rw [overridden_eq _ _ _ (by simp [values]), if_pos (hv _ (by simp))] <;> simp [values, List.lookup_cons, storeFalse]

/-- **C145.** Every loaded object is shown, in the order of the file, the spline itself always, and of knots, control points, their ids and the control mesh exactly those that are not switched
off, each one independently of the others and of the options loaded with the object. -/
theorem shown_elements (c : Command) (loaded : List Subject) {e : Effect} (h : show_ c loaded = some e) :
    e.shown.length = loaded.length ∧ ∀ l ∈ e.shown, Element.spline ∈ l ∧
      ∀ x ∈ [Element.knots, .controlPoints, .controlPointIds, .controlMesh], x ∈ l ↔ ¬ Spec.Hides c x := by
  have hs : e.shown = loaded.map fun s => makeShowable s (setOptions c s).options := by
    unfold show_ at h
    cases hr : c.resolution with
    | none => simp only [hr, Option.some.injEq] at h; rw [← h]
    | some r =>
      cases r with
      | none =>
        simp only [hr] at h
        split at h
        · simp only [Option.some.injEq] at h; rw [← h]
        · cases h
      | some r => simp only [hr, Option.some.injEq] at h; rw [← h]
  rw [hs]
  refine ⟨by simp, fun l hl => ?_⟩
  obtain ⟨s, -, rfl⟩ := List.mem_map.mp hl
  obtain ⟨h1, h2, h3, h4⟩ := setOptions_get c s
  refine ⟨by simp [makeShowable], fun x hx => ?_⟩
  have hk : Spec.Hides c .knots ↔ c.noKnotVectors = true := ⟨fun h => by cases h; assumption, .knots⟩
  have hc : Spec.Hides c .controlPoints ↔ c.noControlPoints = true := ⟨fun h => by cases h; assumption, .controlPoints⟩
  have hi : Spec.Hides c .controlPointIds ↔ c.noCpIds = true := ⟨fun h => by cases h; assumption, .ids⟩
  have hm : Spec.Hides c .controlMesh ↔ c.noControlMesh = true := ⟨fun h => by cases h; assumption, .mesh⟩
  simp only [List.mem_cons, List.not_mem_nil, or_false] at hx
  rcases hx with rfl | rfl | rfl | rfl <;> simp [makeShowable, h1, h2, h3, h4, hk, hc, hi, hm]

/-- **C145.** A resolution that is an integer is used; the window waits for the user unless the picture goes to a file, or if asked to. The command raises exactly for a resolution that is not
an integer, if anything was loaded. -/
theorem effect (c : Command) (loaded : List Subject) :
    (show_ c loaded = none ↔ c.resolution = some none ∧ loaded ≠ []) ∧
    ∀ e, show_ c loaded = some e → (∀ r, c.resolution = some (some r) → e.resolution = some r) ∧
      (e.interactive = true ↔ c.output = false ∨ c.interactive = true) ∧ (e.close = true ↔ c.output = false) ∧ (e.written = true ↔ c.output = true) := by
  unfold show_
  refine ⟨?_, fun e h => ?_⟩
  · cases c.resolution with
    | none => simp
    | some r => cases r <;> cases loaded <;> simp
  · cases hr : c.resolution with
    | none => simp only [hr, Option.some.injEq] at h; subst h; cases c.output <;> simp
    | some r =>
      cases r with
      | none =>
        simp only [hr] at h
        split at h
        · simp only [Option.some.injEq] at h; subst h; cases c.output <;> simp
        · cases h
      | some r => simp only [hr, Option.some.injEq] at h; subst h; cases c.output <;> simp

/-- C145: the warning that the output file is ignored is wrong: whenever it is printed, the picture is written nevertheless. -/
theorem warning_violates (c : Command) (loaded : List Subject) {e : Effect} (h : show_ c loaded = some e) :
    (e.warned = true ↔ c.interactive = true ∧ c.output = true) ∧ (e.warned = true → e.written = true) := by
  unfold show_ at h
  cases hr : c.resolution with
  | none => simp only [hr, Option.some.injEq] at h; subst h; cases c.output <;> cases c.interactive <;> simp
  | some r =>
    cases r with
    | none =>
      simp only [hr] at h
      split at h
      · simp only [Option.some.injEq] at h; subst h; cases c.output <;> cases c.interactive <;> simp
      · cases h
    | some r => simp only [hr, Option.some.injEq] at h; subst h; cases c.output <;> cases c.interactive <;> simp

-- Non-vacuity: a surface and a multipatch of curves; control points and knots switched off, saved to a file and shown interactively.
example : show_ ⟨true, true, true, true, false, false, some (some 30)⟩
    [⟨false, 2, 3, false, false, fun k => if k = "control_points" then some true else none⟩, ⟨true, 1, 2, false, false, fun _ => none⟩] =
      some ⟨[[.spline, .controlPointIds, .controlMesh], [.spline, .controlPointIds, .controlMesh]], some 30, true, false, true, true⟩ := by decide +kernel
example : show_ ⟨false, false, false, false, false, false, some none⟩ [⟨true, 1, 2, false, false, fun _ => none⟩] = none := by decide +kernel

end Splinepy.CliShow
