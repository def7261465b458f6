import Verif.Props.WatertightTiles
import Verif.Props.TileJoinsVoid

/-!
C116, continued: `CubeVoid`, `EllipsVoid` and `Chi`.
-/
namespace Splinepy.Watertight
open Splinepy.Tiles
open Splinepy.Tiles.Spec (OnPlane Meets sides readings Joins InUnitCube shape faces ShortDiagonal SmallRadii)

/-! ### specification -/

/-- Four values, expansions in `x` and in `y` and `z`, with a void whose diagonal is shorter than the cell, and any two angles. -/
def Spec.VoidsWithShortDiagonal (φ : List ℝ → List ℝ) : Prop := ∀ place, ∃ x yz a b, φ place = [x, yz, a, b] ∧ x ^ 2 + 2 * yz ^ 2 < 1

/-- Four values, radii in `x` and in `y` and `z`, that are below `1 / √3`, and any two angles. -/
def Spec.VoidsWithSmallRadii (φ : List ℝ → List ℝ) : Prop := ∀ place, ∃ x yz a b, φ place = [x, yz, a, b] ∧ x ^ 2 < 1 / 3 ∧ yz ^ 2 < 1 / 3

/-! ### faces with a fixed number of control points -/

theorem turn_nine {α : Type} [Inhabited α] (f : List α) (h : f.length = 9) : Tiles.Spec.turn 3 3 false false false f = f := by
  match f, h with
  | [a, b, c, d, e, f, g, h, i], _ => rfl

theorem meets_of_joins {K : Type} [Field K] {axis : ℕ} {t u : List (Patch K)} {s : List ℕ} {n : ℕ} (hs : ∀ f : List (List K), f.length = n → (s, f) ∈ readings (s, f))
    (ht : ∀ f ∈ t.flatMap sides, OnPlane f.2 axis 1 → f.1 = s ∧ f.2.length = n) (hu : ∀ f ∈ u.flatMap sides, OnPlane f.2 axis 0 → f.1 = s ∧ f.2.length = n) (h : Joins t u axis) :
    Meets t u axis := by
  constructor
  · intro f hf hp
    obtain ⟨g, hg, hg0, e⟩ := h.1 f.2 (mem_faces.2 ⟨f.1, hf⟩) hp
    obtain ⟨s', hs'⟩ := mem_faces.1 hg
    refine ⟨_, hs', hg0, ?_⟩
    obtain ⟨h1, h2⟩ := ht f hf hp
    rw [show f = (s, f.2) from Prod.ext h1 rfl]
    have := (hu _ hs' hg0).1
    simp only at this ⊢
    rw [this, e]
    exact hs _ h2
  · intro f hf hp
    obtain ⟨g, hg, hg0, e⟩ := h.2 f.2 (mem_faces.2 ⟨f.1, hf⟩) hp
    obtain ⟨s', hs'⟩ := mem_faces.1 hg
    refine ⟨_, hs', hg0, ?_⟩
    obtain ⟨h1, h2⟩ := hu f hf hp
    rw [show f = (s, f.2) from Prod.ext h1 rfl]
    have := (ht _ hs' hg0).1
    simp only at this ⊢
    rw [this, e]
    exact hs _ h2

theorem self_four {K : Type} (f : List (List K)) (h : f.length = 4) : ([2, 2], f) ∈ readings ([2, 2], f) := by
  simp only [readings, List.map_cons, List.map_nil, List.flatMap_cons, List.flatMap_nil, List.append_nil, List.mem_append, List.mem_cons]
  exact Or.inl (Or.inl (Or.inl (by rw [turn_four f h]; rfl)))

theorem self_nine {K : Type} (f : List (List K)) (h : f.length = 9) : ([3, 3], f) ∈ readings ([3, 3], f) := by
  simp only [readings, List.map_cons, List.map_nil, List.flatMap_cons, List.flatMap_nil, List.append_nil, List.mem_append, List.mem_cons]
  exact Or.inl (Or.inl (Or.inl (by rw [turn_nine f h]; rfl)))

theorem self_point {K : Type} (f : List (List K)) : (([] : List ℕ), f) ∈ readings ([], f) := by simp [readings]

/-! ### the classes -/

/-- C116 for `CubeVoid`, for voids whose diagonal is shorter than the cell. -/
theorem cube_void_watertight_partial : Spec.Seamless createCubeVoid 3 [[1 / 2, 1 / 2, 1 / 2]] Spec.VoidsWithShortDiagonal := by
  have hshape : ∀ c p T, createCubeVoid c p none = some T → shape T.splines = shape (cubeVoid (0 : ℚ) 0 (List.replicate 8 [0, 0, 0])) := by
    intro c p T h
    simp only [createCubeVoid, Option.ite_none_right_eq_some, Option.some.injEq] at h
    obtain ⟨-, rfl⟩ := h
    rw [voidPoints, applyRows_eq]
    rfl
  have hgrid : ∀ c p T, createCubeVoid c p none = some T → ∀ f ∈ T.splines.flatMap sides, f.1 = [2, 2] ∧ f.2.length = 4 := by
    intro c p T h f hf
    obtain ⟨P, hP, d, hd, last, rfl⟩ := mem_sides.1 hf
    have hall : ∀ q ∈ shape (cubeVoid (0 : ℚ) 0 (List.replicate 8 [0, 0, 0])), q.1 = [1, 1, 1] := by decide +kernel
    have hdeg : P.degrees = [1, 1, 1] := hall (P.degrees, P.cps.map List.length) (by rw [← hshape c p T h]; exact List.mem_map.2 ⟨P, hP, rfl⟩)
    simp only
    rw [face_length P hd, hdeg]
    rw [hdeg] at hd
    obtain rfl | rfl | rfl : d = 0 ∨ d = 1 ∨ d = 2 := by simp at hd; omega
    all_goals exact ⟨rfl, rfl⟩
  refine seamless_of_fits_on (A := ShortDiagonal) (R := fun _ _ _ => True) (by omega) ⟨?_, ?_⟩ (by simp [MicroGeometry.Spec.Cube]; norm_num) (fun _ _ _ _ _ => trivial) ⟨?_, ?_⟩
  · intro c p T hp h
    refine tidy_of_shape (sh := shape (cubeVoid (0 : ℚ) 0 (List.replicate 8 [0, 0, 0]))) (by decide +kernel) (hshape c p T h) ?_
    simp only [createCubeVoid, Option.ite_none_right_eq_some, Option.some.injEq] at h
    obtain ⟨-, rfl⟩ := h
    exact cubeVoid_in _ fun r hr x hx => ⟨((cube_inside p hp r hr).2 x hx).1.le, ((cube_inside p hp r hr).2 x hx).2.le⟩
  · intro axis ha c c' hn p q T U hp hq _ hT hU
    exact meets_of_joins self_four (fun f hf _ => hgrid c p T hT f hf) (fun f hf _ => hgrid c' q U hU f hf) (cube_void_joins_partial axis ha c c' p q none none T U hT hU hp hq)
  · simp [ShortDiagonal]
  · rintro φ P hφ _ ⟨⟩
    cases P with
    | nil => norm_num [flatEntry]
    | cons v P =>
      obtain ⟨x, yz, a, b, e, h⟩ := hφ v
      simpa [flatEntry, e] using h

/-- C116 for `EllipsVoid`, for radii below `1 / √3`. -/
theorem ellips_void_watertight_partial : Spec.Seamless createEllipsVoid 3 [[1 / 2, 1 / 2, 1 / 2]] Spec.VoidsWithSmallRadii := by
  have hshape : ∀ c p T, createEllipsVoid c p none = some T → shape T.splines = shape (ellipsVoid (0 : ℚ) 0 0 (List.replicate 27 [0, 0, 0])) := by
    intro c p T h
    simp only [createEllipsVoid, Option.ite_none_right_eq_some, Option.some.injEq] at h
    obtain ⟨-, rfl⟩ := h
    rw [voidPoints, applyRows_eq]
    rfl
  have hgrid : ∀ c p T axis v, axis < 3 → v = 0 ∨ v = 1 → SmallRadii p → createEllipsVoid c p none = some T → ∀ f ∈ T.splines.flatMap sides, OnPlane f.2 axis v → f.1 = [3, 3] ∧ f.2.length = 9 := by
    intro c p T axis v ha hv hp h f hf hpl
    have hlen : f.2.length = 9 := by
      have hm : f.2 ∈ faces T.splines := mem_faces.2 ⟨f.1, hf⟩
      simp only [createEllipsVoid, Option.ite_none_right_eq_some, Option.some.injEq] at h
      obtain ⟨-, rfl⟩ := h
      have := (ellipsVoid_side _ (by rw [voidPoints_length]; rfl) (ellips_inside p hp) axis ha v hv f.2).1 ⟨hm, hpl⟩
      rw [List.mem_singleton] at this
      rw [this]
      obtain rfl | rfl | rfl : axis = 0 ∨ axis = 1 ∨ axis = 2 := by omega
      all_goals rfl
    refine ⟨?_, hlen⟩
    obtain ⟨P, hP, d, hd, last, rfl⟩ := mem_sides.1 hf
    have hall : ∀ q ∈ shape (ellipsVoid (0 : ℚ) 0 0 (List.replicate 27 [0, 0, 0])), q.1 = [2, 2, 1] ∨ q.1 = [2, 1, 2] ∨ q.1 = [1, 2, 2] := by decide +kernel
    have hdeg := hall (P.degrees, P.cps.map List.length) (by rw [← hshape c p T h]; exact List.mem_map.2 ⟨P, hP, rfl⟩)
    simp only at hlen hdeg ⊢
    rw [face_length P hd] at hlen
    generalize P.degrees = ds at *
    rcases hdeg with rfl | rfl | rfl
    all_goals
      obtain rfl | rfl | rfl : d = 0 ∨ d = 1 ∨ d = 2 := by simp at hd; omega
      all_goals revert hlen; decide
  refine seamless_of_fits_on (A := SmallRadii) (R := fun _ _ _ => True) (by omega) ⟨?_, ?_⟩ (by simp [MicroGeometry.Spec.Cube]; norm_num) (fun _ _ _ _ _ => trivial) ⟨?_, ?_⟩
  · intro c p T hp h
    refine tidy_of_shape (sh := shape (ellipsVoid (0 : ℚ) 0 0 (List.replicate 27 [0, 0, 0]))) (by decide +kernel) (hshape c p T h) ?_
    simp only [createEllipsVoid, Option.ite_none_right_eq_some, Option.some.injEq] at h
    obtain ⟨-, rfl⟩ := h
    exact ellipsVoid_in _ fun r hr x hx => ⟨((ellips_inside p hp r hr).2 x hx).1.le, ((ellips_inside p hp r hr).2 x hx).2.le⟩
  · intro axis ha c c' hn p q T U hp hq _ hT hU
    exact meets_of_joins self_nine (hgrid c p T axis 1 ha (Or.inr rfl) hp hT) (hgrid c' q U axis 0 ha (Or.inl rfl) hq hU) (ellips_void_joins_partial axis ha c c' p q none none T U hT hU hp hq)
  · simp [SmallRadii]
  · rintro φ P hφ _ ⟨⟩
    cases P with
    | nil => norm_num [flatEntry]
    | cons v P =>
      obtain ⟨x, yz, a, b, e, h⟩ := hφ v
      simpa [flatEntry, e] using h

/-- C116 for `Chi`: curves in a deformation function with two parameters. -/
theorem chi_watertight : Spec.SeamlessOf createChi 2 1 [[1 / 2, 1 / 2]] fun _ => True := by
  have hshape : ∀ c p T, createChi c p none = some T → shape T.splines = shape (chi (0 : ℚ) 0 0 0) := by
    intro c p T h
    simp only [createChi, Option.ite_none_right_eq_some, Option.some.injEq] at h
    obtain ⟨-, rfl⟩ := h
    rfl
  have hgrid : ∀ c p T, createChi c p none = some T → ∀ f ∈ T.splines.flatMap sides, f.1 = [] ∧ f.2.length = 1 := by
    intro c p T h f hf
    obtain ⟨P, hP, d, hd, last, rfl⟩ := mem_sides.1 hf
    have hall : ∀ q ∈ shape (chi (0 : ℚ) 0 0 0), q.1 = [2] := by decide +kernel
    have hdeg : P.degrees = [2] := hall (P.degrees, P.cps.map List.length) (by rw [← hshape c p T h]; exact List.mem_map.2 ⟨P, hP, rfl⟩)
    simp only
    rw [face_length P hd, hdeg]
    rw [hdeg] at hd
    obtain rfl : d = 0 := by simp at hd; omega
    exact ⟨rfl, rfl⟩
  have hdef : ∀ c p T, createChi c p none = some T → ∃ P, createChi c (some P) none = some T := by
    intro c p T h
    cases p with
    | some P => exact ⟨P, h⟩
    | none =>
      refine ⟨[[Real.pi / 8]], ?_⟩
      rw [← h]
      have := Real.pi_pos
      have h1 : -Real.pi * (1 / 2) ≤ Real.pi / 8 := by linarith
      have h2 : Real.pi / 8 < Real.pi * (1 / 2) := by linarith
      simp only [createChi, Option.getD_some, Option.getD_none, Option.isNone_some, Option.isNone_none, List.all_cons, List.all_nil, h1, h2, decide_true, Bool.and_self, Bool.or_true, Bool.true_or]
  refine seamless_of_fits_on (A := fun _ => True) (R := fun _ _ _ => True) (by omega) ⟨?_, ?_⟩ (by simp [MicroGeometry.Spec.Cube]; norm_num) (fun _ _ _ _ _ => trivial) ⟨trivial, fun _ _ _ => trivial⟩
  · intro c p T _ h
    refine tidy_of_shape (sh := shape (chi (0 : ℚ) 0 0 0)) (by decide +kernel) (hshape c p T h) ?_
    obtain ⟨P, h⟩ := hdef c p T h
    exact chi_in_unit_square c P none T h
  · intro axis ha c c' hn p q T U _ _ _ hT hU
    exact meets_of_joins (fun f _ => self_point f) (fun f hf _ => hgrid c p T hT f hf) (fun f hf _ => hgrid c' q U hU f hf) (chi_joins axis ha c c' p q none none T U hT hU)

example : Spec.VoidsWithShortDiagonal (fun v => [1 / 3, 1 / 2 * Real.sin (v.getD 0 0), v.getD 1 0, 7]) := by
  intro v
  refine ⟨_, _, _, _, rfl, ?_⟩
  nlinarith [Real.sin_sq_le_one (v.getD 0 0)]

example : Spec.VoidsWithSmallRadii (fun v => [1 / 3, 1 / 2, v.getD 1 0, 7]) := fun v => ⟨_, _, _, _, rfl, by norm_num, by norm_num⟩

end Splinepy.Watertight
