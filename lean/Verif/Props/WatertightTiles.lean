import Verif.Props.MicroTile
import Verif.Props.Watertight

/-!
C116 for the tile classes of splinepy.
-/
set_option linter.unusedSectionVars false
namespace Splinepy.Watertight
open Splinepy.Spec Finset Splinepy.BezierFace
open Splinepy.Index (Spline)
open Splinepy.KnotInsertion (Dim)
open Splinepy.BezierSpline (On)
open Splinepy.MicroGeometry (Library Settings prerequisites Prepared Spec.Cube Spec.image Spec.place Spec.elements Spec.Placed Spec.TilePatch Spec.Composes Spec.Contract)
open Splinepy.Tiles
open Splinepy.Tiles.Spec (bezier OnPlane Meets Neighbours sides readings Joins JoinsEitherWay InUnitCube shape faces RadiiBelow)

/-! ### specification -/

/-- A deformation function with the directions `ds`, whose knot spans are cut into `tiles` parts. -/
structure Spec.SpanWise (tol : ℝ) (x : Settings ℝ) (dim : ℕ) (ds : List (Dim ℝ)) (tiles : List ℕ) : Prop where
  valid : ValidSpline x.deformation
  rows : ∀ P ∈ x.deformation.controlPoints, P.length = dim
  count : tiles.length = ds.length
  tiling : x.tiling = tiles.map Int.ofNat
  knots : On (Create.withKnotVectors x.deformation) ds
  spans : List.Forall₂ (fun d (t : ℕ) => 1 ≤ t ∧ d.Valid ((t : ℝ) * tol)) ds tiles
  continuous : ∀ d ∈ ds, ∀ g ∈ d.inner, g.2 ≤ d.degree

/-- A deformation function with the directions `ds`, which get `tiles` tiles, more than they have knot spans, and the directions `rest`, which keep their knot spans. -/
structure Spec.Total (tol : ℝ) (x : Settings ℝ) (dim : ℕ) (ds rest : List (Dim ℝ)) (tiles tilesr : List ℕ) : Prop where
  valid : ValidSpline x.deformation
  rows : ∀ P ∈ x.deformation.controlPoints, P.length = dim
  nonempty : ds ≠ []
  tiling : x.tiling = (tiles ++ tilesr).map Int.ofNat
  knots : On (Create.withKnotVectors x.deformation) (ds ++ rest)
  more : List.Forall₂ (fun d (t : ℕ) => d.uniqueKnots.length - 1 < t ∧ d.Valid ((t : ℝ) * tol)) ds tiles
  fewer : List.Forall₂ (fun d (t : ℕ) => t ≤ d.uniqueKnots.length - 1 ∧ d.Valid tol) rest tilesr
  continuous : ∀ d ∈ ds ++ rest, ∀ g ∈ d.inner, g.2 ≤ d.degree

/-- The parametrisation function takes its values place by place, with an admissible function; or there is none. -/
def Spec.Pointwise (admissible : (List ℝ → List ℝ) → Prop) (parametrization : Option (List (List ℝ) → List (List ℝ))) : Prop :=
  ∀ f, parametrization = some f → ∃ φ, admissible φ ∧ f = List.map φ

/-- All microstructures of the tile class with the given evaluation points, in `n` directions and with patches with `m` parameters, are watertight, if they are created at all. -/
def Spec.SeamlessOf (make : Option String → Option (Mat ℝ) → Option (List (Mat ℝ)) → Option (Tile ℝ)) (n m : ℕ) (points : List (List ℝ)) (admissible : (List ℝ → List ℝ) → Prop) : Prop :=
  ∀ (tol : ℝ) (lib : Library ℝ) (x : Settings ℝ) (face : Option Char) (dim : ℕ), 0 < tol → Spec.Contract tol (BezierSpline.Clamped tol) lib → Spec.Composes x.deformation.weights.isSome lib.compose →
    x.createTile = (fun p c => (MicroTile.createTile make face p none c).map Prod.fst) → x.evaluationPoints = points → Spec.Pointwise admissible x.parametrization →
    (∀ ds tiles, ds.length = n → Spec.SpanWise tol x dim ds tiles → (MicroGeometry.create lib tol x face true).isSome →
      Spec.IsWatertight x n m dim (List.zipWith (fun d t => Micro.Spec.subdivide d.uniqueKnots fun _ => t) ds tiles) face (MicroGeometry.create lib tol x face true)) ∧
    (∀ ds rest tiles tilesr, (ds ++ rest).length = n → Spec.Total tol x dim ds rest tiles tilesr → (MicroGeometry.create lib tol x face false).isSome →
      ∃ parts : List (ℕ → ℕ), parts.length = ds.length ∧
        (∀ (i : ℕ) (d : Dim ℝ) (t : ℕ) (p : ℕ → ℕ), ds[i]? = some d → tiles[i]? = some t → parts[i]? = some p → Micro.Spec.Even d.uniqueKnots t p) ∧
        Spec.IsWatertight x n m dim (List.zipWith (fun d p => Micro.Spec.subdivide d.uniqueKnots p) ds parts ++ rest.map (·.uniqueKnots)) face (MicroGeometry.create lib tol x face false))

/-- `Spec.SeamlessOf` for tiles whose patches have as many parameters as the macro spline. -/
def Spec.Seamless (make : Option String → Option (Mat ℝ) → Option (List (Mat ℝ)) → Option (Tile ℝ)) (n : ℕ) (points : List (List ℝ)) (admissible : (List ℝ → List ℝ) → Prop) : Prop :=
  Spec.SeamlessOf make n n points admissible

/-! ### from the tile classes to the microstructures -/

theorem seamless_of_fits_on {make : Option String → Option (Mat ℝ) → Option (List (Mat ℝ)) → Option (Tile ℝ)} {n m : ℕ} (hn : 0 < n) {points : List (List ℝ)} {admissible : (List ℝ → List ℝ) → Prop}
    {R : ℕ → Option (Mat ℝ) → Option (Mat ℝ) → Prop} {A : Option (Mat ℝ) → Prop} (hF : FitsOn make n m A R) (hcube : ∀ v ∈ points, Spec.Cube n v)
    (hR : ∀ axis < n, ∀ p q, (p = none ∧ q = none) ∨ (∃ φ P Q, admissible φ ∧ p = some (List.map φ P) ∧ q = some (List.map φ Q) ∧ P.length = points.length ∧ Q.length = points.length ∧
      ∀ (a a' : ℕ) v, points[a]? = some v → v[axis]? = some 1 → points[a']? = some (v.set axis 0) → P[a]? = Q[a']?) → R axis p q)
    (hA : A none ∧ ∀ φ P, admissible φ → A (some (List.map φ P))) : Spec.SeamlessOf make n m points admissible := by
  intro tol lib x face dim ht hL hC hx hpts hφ
  have hRx : ∀ breaks : List (List ℝ), breaks.length = n → ∀ e e' axis i, (digits (Spec.elements breaks) e)[axis]? = some i →
      digits (Spec.elements breaks) e' = (digits (Spec.elements breaks) e).set axis (i + 1) →
      R axis (x.parametrization.map fun f => f (x.evaluationPoints.map (Spec.place breaks (digits (Spec.elements breaks) e))))
        (x.parametrization.map fun f => f (x.evaluationPoints.map (Spec.place breaks (digits (Spec.elements breaks) e')))) := by
    intro breaks hb e e' axis i hi he
    have ha : axis < n := by
      have := (List.getElem?_eq_some_iff.1 hi).1
      rwa [digits_length, MicroGeometry.Spec.elements, List.length_map, hb] at this
    refine hR axis ha _ _ ?_
    cases hf : x.parametrization with
    | none => exact Or.inl ⟨rfl, rfl⟩
    | some f =>
      obtain ⟨φ, hadm, rfl⟩ := hφ f hf
      refine Or.inr ⟨φ, _, _, hadm, rfl, rfl, by rw [List.length_map, hpts], by rw [List.length_map, hpts], fun a a' v h1 h2 h3 => ?_⟩
      rw [hpts, List.getElem?_map, List.getElem?_map, h1, h3, Option.map_some, Option.map_some, he, MicroGeometry.place_neighbour _ _ _ _ _ hi h2]
  have hAx : ∀ pts, A (x.parametrization.map fun f => f pts) := by
    intro pts
    cases hf : x.parametrization with
    | none => exact hA.1
    | some f =>
      obtain ⟨φ, hadm, rfl⟩ := hφ f hf
      exact hA.2 φ pts hadm
  have hdn : ∀ ds, On (Create.withKnotVectors x.deformation) ds → x.deformation.degrees.length = ds.length := by
    intro ds hon
    have := hon.degrees
    rw [show (Create.withKnotVectors x.deformation).degrees = x.deformation.degrees by unfold Create.withKnotVectors; split <;> rfl] at this
    rw [this, List.length_map]
  constructor
  · intro ds tiles hds hs hsome
    have h := MicroGeometry.prerequisites_span_wise ht hL x.deformation x.parametrization.isSome dim hs.valid hs.rows ds tiles (List.length_pos_iff.1 (by omega)) hs.count hs.knots hs.spans hs.continuous
    rw [← hs.tiling, hds] at h
    exact watertight_prepared_on x face true n m dim dim hn (by rw [hdn ds hs.knots, hds]) hC _ (by simp [hs.count, hds]) (by rw [hpts]; exact hcube) h hF hx (hRx _ (by simp [hs.count, hds])) hAx hsome
  · intro ds rest tiles tilesr hds hs hsome
    obtain ⟨parts, h1, h2, h⟩ := MicroGeometry.prerequisites_total_partial ht hL x.deformation x.parametrization.isSome dim hs.valid hs.rows ds rest tiles tilesr hs.nonempty hs.knots hs.more hs.fewer hs.continuous
    rw [← hs.tiling, hds] at h
    have hb : (List.zipWith (fun (d : Dim ℝ) p => Micro.Spec.subdivide d.uniqueKnots p) ds parts ++ rest.map (·.uniqueKnots)).length = n := by
      rw [List.length_append, List.length_zipWith, h1, List.length_map, Nat.min_self, ← List.length_append, hds]
    exact ⟨parts, h1, h2, watertight_prepared_on x face false n m dim dim hn (by rw [hdn _ hs.knots, hds]) hC _ hb (by rw [hpts]; exact hcube) h hF hx (hRx _ hb) hAx hsome⟩

theorem seamless_of_fits {make : Option String → Option (Mat ℝ) → Option (List (Mat ℝ)) → Option (Tile ℝ)} {n : ℕ} (hn : 0 < n) {points : List (List ℝ)} {admissible : (List ℝ → List ℝ) → Prop}
    {R : ℕ → Option (Mat ℝ) → Option (Mat ℝ) → Prop} (hF : Fits make n n R) (hcube : ∀ v ∈ points, Spec.Cube n v)
    (hR : ∀ axis < n, ∀ p q, (p = none ∧ q = none) ∨ (∃ φ P Q, admissible φ ∧ p = some (List.map φ P) ∧ q = some (List.map φ Q) ∧ P.length = points.length ∧ Q.length = points.length ∧
      ∀ (a a' : ℕ) v, points[a]? = some v → v[axis]? = some 1 → points[a']? = some (v.set axis 0) → P[a]? = Q[a']?) → R axis p q) : Spec.Seamless make n points admissible :=
  seamless_of_fits_on hn (A := fun _ => True) ⟨fun c p T _ => hF.tidy c p T, fun axis ha c c' hn p q T U _ _ => hF.meets axis ha c c' hn p q T U⟩ hcube hR ⟨trivial, fun _ _ _ => trivial⟩

/-! ### the classes -/

theorem tidy_of_shape {K : Type} [Field K] [LinearOrder K] {n m : ℕ} {sh : List (List ℕ × List ℕ)} (hsh : MicroTile.Shaped n m sh) {t : List (Patch K)} (ht : shape t = sh) (hin : InUnitCube t) : Tidy n m t := by
  intro P hP
  have hq : (P.degrees, P.cps.map List.length) ∈ sh := by rw [← ht]; exact List.mem_map.2 ⟨P, hP, rfl⟩
  obtain ⟨h1, h2⟩ := hsh _ hq
  change P.cps.map List.length = _ at h2
  refine ⟨h1, ?_, fun c hc => ⟨?_, fun x hx => hin P hP c hc x hx⟩⟩
  · have := congrArg List.length h2
    rw [List.length_map, List.length_replicate] at this
    exact this
  · have : c.length ∈ P.cps.map List.length := List.mem_map.2 ⟨c, hc, rfl⟩
    rw [h2] at this
    exact List.eq_of_mem_replicate this

theorem turn_line {α : Type} [Inhabited α] (f : List α) : Tiles.Spec.turn f.length 1 false false false f = f ∧ Tiles.Spec.turn f.length 1 false true false f = f.reverse := by
  constructor
  · unfold Tiles.Spec.turn
    refine List.ext_getElem (by simp) fun i h1 h2 => ?_
    simp [List.getElem?_eq_getElem h2]
  · unfold Tiles.Spec.turn
    refine List.ext_getElem (by simp) fun i h1 h2 => ?_
    rw [List.length_reverse] at h2
    simp only [Bool.false_eq_true, if_false, List.range_one, List.flatMap_cons, List.flatMap_nil, List.append_nil, if_true, Nat.mul_zero, Nat.add_zero, List.getElem_map, List.getElem_range,
      List.getElem_reverse]
    rw [List.getD_eq_getElem _ _ (by omega)]

theorem turn_four {α : Type} [Inhabited α] (f : List α) (h : f.length = 4) : Tiles.Spec.turn 2 2 false false false f = f := by
  match f, h with
  | [a, b, c, d], _ => rfl

theorem mem_faces {K : Type} {t : List (Patch K)} {f : List (List K)} : f ∈ faces t ↔ ∃ s, (s, f) ∈ t.flatMap sides := by
  simp only [faces, sides, List.mem_flatMap, List.mem_range, List.mem_cons, List.not_mem_nil, or_false, Prod.mk.injEq]
  constructor
  · rintro ⟨P, hP, d, hd, h | h⟩
    · exact ⟨_, P, hP, d, hd, Or.inl ⟨rfl, h⟩⟩
    · exact ⟨_, P, hP, d, hd, Or.inr ⟨rfl, h⟩⟩
  · rintro ⟨s, P, hP, d, hd, h | h⟩
    · exact ⟨P, hP, d, hd, Or.inl h.2⟩
    · exact ⟨P, hP, d, hd, Or.inr h.2⟩

theorem sides_line {K : Type} [Field K] [LinearOrder K] [IsStrictOrderedRing K] {n : ℕ} {t : List (Patch K)} (ht : Tidy n 2 t) {f : List ℕ × List (List K)} (hf : f ∈ t.flatMap sides) : f.1 = [f.2.length] := by
  obtain ⟨P, hP, d, hd, last, rfl⟩ := mem_sides.1 hf
  have h := (ht P hP).1
  rw [face_length P hd]
  obtain ⟨a, b, e⟩ : ∃ a b, P.degrees = [a, b] := List.length_eq_two.1 h
  rw [e] at hd ⊢
  obtain rfl | rfl : d = 0 ∨ d = 1 := by simp at hd; omega
  · simp
  · simp

theorem meets_plane {K : Type} [Field K] [LinearOrder K] [IsStrictOrderedRing K] {n axis : ℕ} {t u : List (Patch K)} (ht : Tidy n 2 t) (hu : Tidy n 2 u) (h : JoinsEitherWay t u axis) : Meets t u axis := by
  have key : ∀ {v : K} {f g : List (List K)}, (g.map (fun x => x.set axis v) = f ∨ (g.map fun x => x.set axis v).reverse = f) → ([g.length], g.map fun x => x.set axis v) ∈ readings ([f.length], f) := by
    intro v f g h
    have hl : g.length = f.length := by
      rcases h with h | h
      · rw [← h, List.length_map]
      · rw [← h, List.length_reverse, List.length_map]
    simp only [readings, List.map_cons, List.map_nil, List.mem_cons, List.not_mem_nil, or_false, (turn_line f).1, (turn_line f).2]
    rw [hl]
    rcases h with h | h
    · exact Or.inl (by rw [h])
    · exact Or.inr (by rw [← h, List.reverse_reverse])
  constructor
  · intro f hf hp
    obtain ⟨g, hg, hg0, e⟩ := h.1 f.2 (mem_faces.2 ⟨f.1, hf⟩) hp
    obtain ⟨s, hs⟩ := mem_faces.1 hg
    refine ⟨_, hs, hg0, ?_⟩
    rw [show f = ([f.2.length], f.2) from Prod.ext (sides_line ht hf) rfl]
    have := sides_line hu hs
    simp only at this ⊢
    rw [this]
    exact key e
  · intro f hf hp
    obtain ⟨g, hg, hg0, e⟩ := h.2 f.2 (mem_faces.2 ⟨f.1, hf⟩) hp
    obtain ⟨s, hs⟩ := mem_faces.1 hg
    refine ⟨_, hs, hg0, ?_⟩
    rw [show f = ([f.2.length], f.2) from Prod.ext (sides_line hu hf) rfl]
    have := sides_line ht hs
    simp only at this ⊢
    rw [this]
    exact key e

theorem joins_eitherWay {K : Type} [Field K] {axis : ℕ} {t u : List (Patch K)} (h : Joins t u axis) : JoinsEitherWay t u axis :=
  ⟨fun f hf hp => by
    obtain ⟨g, h1, h2, h3⟩ := h.1 f hf hp
    exact ⟨g, h1, h2, Or.inl h3⟩, fun f hf hp => by
    obtain ⟨g, h1, h2, h3⟩ := h.2 f hf hp
    exact ⟨g, h1, h2, Or.inl h3⟩⟩

/-- all faces in this side of the cell have two times two control points -/
def Small {K : Type} [Field K] (t : List (Patch K)) (axis : ℕ) (v : K) : Prop := ∀ f ∈ t.flatMap sides, OnPlane f.2 axis v → f.1 = [2, 2] ∧ f.2.length = 4

theorem meets_small {K : Type} [Field K] {axis : ℕ} {t u : List (Patch K)} (ht : Small t axis 1) (hu : Small u axis 0) (h : Joins t u axis) : Meets t u axis := by
  have key : ∀ {v : K} {f g : List (List K)}, f.length = 4 → g.map (fun x => x.set axis v) = f → ([2, 2], g.map fun x => x.set axis v) ∈ readings ([2, 2], f) := by
    intro v f g h4 h
    simp only [readings, List.map_cons, List.map_nil, List.flatMap_cons, List.flatMap_nil, List.append_nil, List.mem_append, List.mem_cons]
    exact Or.inl (Or.inl (Or.inl (by rw [turn_four f h4, h]; rfl)))
  constructor
  · intro f hf hp
    obtain ⟨g, hg, hg0, e⟩ := h.1 f.2 (mem_faces.2 ⟨f.1, hf⟩) hp
    obtain ⟨s, hs⟩ := mem_faces.1 hg
    refine ⟨_, hs, hg0, ?_⟩
    obtain ⟨h1, h2⟩ := ht f hf hp
    rw [show f = ([2, 2], f.2) from Prod.ext h1 rfl]
    have := (hu _ hs hg0).1
    simp only at this ⊢
    rw [this]
    exact key h2 e
  · intro f hf hp
    obtain ⟨g, hg, hg0, e⟩ := h.2 f.2 (mem_faces.2 ⟨f.1, hf⟩) hp
    obtain ⟨s, hs⟩ := mem_faces.1 hg
    refine ⟨_, hs, hg0, ?_⟩
    obtain ⟨h1, h2⟩ := hu f hf hp
    rw [show f = ([2, 2], f.2) from Prod.ext h1 rfl]
    have := (ht _ hs hg0).1
    simp only at this ⊢
    rw [this]
    exact key h2 e

/-- Parameters of neighbours: both are the default ones, or those at the common evaluation point are equal. -/
def Agree (admissible : Mat ℝ → Prop) (axis : ℕ) (p q : Option (Mat ℝ)) : Prop :=
  (p = none ∧ q = none) ∨ ∃ P Q, admissible P ∧ admissible Q ∧ p = some P ∧ q = some Q ∧ entry P (2 * axis + 1) 0 = entry Q (2 * axis) 0

theorem agree_of {n : ℕ} {points : List (List ℝ)} {admissible : (List ℝ → List ℝ) → Prop} {ok : Mat ℝ → Prop} (hok : ∀ φ, admissible φ → ∀ P, ok (List.map φ P))
    (hpts : ∀ axis < n, ∃ v, points[2 * axis + 1]? = some v ∧ v[axis]? = some 1 ∧ points[2 * axis]? = some (v.set axis 0)) :
    ∀ axis < n, ∀ p q, (p = none ∧ q = none) ∨ (∃ φ P Q, admissible φ ∧ p = some (List.map φ P) ∧ q = some (List.map φ Q) ∧ P.length = points.length ∧ Q.length = points.length ∧
      ∀ (a a' : ℕ) v, points[a]? = some v → v[axis]? = some 1 → points[a']? = some (v.set axis 0) → P[a]? = Q[a']?) → Agree ok axis p q := by
  rintro axis ha p q (h | ⟨φ, P, Q, hφ, rfl, rfl, -, -, h⟩)
  · exact Or.inl h
  · obtain ⟨v, h1, h2, h3⟩ := hpts axis ha
    refine Or.inr ⟨_, _, hok φ hφ P, hok φ hφ Q, rfl, rfl, ?_⟩
    unfold entry
    rw [List.getD_eq_getElem?_getD (l := List.map φ P), List.getD_eq_getElem?_getD (l := List.map φ Q), List.getElem?_map, List.getElem?_map, h _ _ v h1 h2 h3]

theorem entry_constant {points : ℕ} {v : ℝ} {j : ℕ} (h : j < points) : entry (constant points 1 v) j 0 = v := by
  unfold entry constant
  rw [List.getD_eq_getElem?_getD (l := List.replicate points _), List.getElem?_replicate, if_pos h]
  rfl

/-- evaluation points of `Cross2D`, splinepy/microstructure/tiles/cross_2d.py 20-27 -/
noncomputable def edgeCentres : List (List ℝ) := [[0, 1 / 2], [1, 1 / 2], [1 / 2, 0], [1 / 2, 1]]

/-- evaluation points of `Cross3D`, `Cross3DLinear` and `InverseCross3D`, splinepy/microstructure/tiles/cross_3d.py 20-29 -/
noncomputable def faceCentres : List (List ℝ) := [[0, 1 / 2, 1 / 2], [1, 1 / 2, 1 / 2], [1 / 2, 0, 1 / 2], [1 / 2, 1, 1 / 2], [1 / 2, 1 / 2, 0], [1 / 2, 1 / 2, 1]]

theorem edgeCentres_cube : ∀ v ∈ edgeCentres, Spec.Cube 2 v := by
  simp [edgeCentres, MicroGeometry.Spec.Cube]
  norm_num

theorem edgeCentres_pairs : ∀ axis < 2, ∃ v, edgeCentres[2 * axis + 1]? = some v ∧ v[axis]? = some 1 ∧ edgeCentres[2 * axis]? = some (v.set axis 0) := by
  intro axis ha
  obtain rfl | rfl : axis = 0 ∨ axis = 1 := by omega
  all_goals exact ⟨_, rfl, rfl, rfl⟩

theorem faceCentres_cube : ∀ v ∈ faceCentres, Spec.Cube 3 v := by
  simp [faceCentres, MicroGeometry.Spec.Cube]
  norm_num

theorem faceCentres_pairs : ∀ axis < 3, ∃ v, faceCentres[2 * axis + 1]? = some v ∧ v[axis]? = some 1 ∧ faceCentres[2 * axis]? = some (v.set axis 0) := by
  intro axis ha
  obtain rfl | rfl | rfl : axis = 0 ∨ axis = 1 ∨ axis = 2 := by omega
  all_goals exact ⟨_, rfl, rfl, rfl⟩

/-- C116 for `Cross2D`. -/
theorem cross2D_watertight (expansion bound fill : ℝ) : Spec.Seamless (createCross2D expansion bound fill) 2 edgeCentres fun _ => True := by
  have hdef : ∀ c, createCross2D expansion bound fill c none none = createCross2D expansion bound fill c (some (constant 4 1 (1 / 5))) none := fun c => rfl
  have tidy : ∀ c p T, createCross2D expansion bound fill c p none = some T → Tidy 2 2 T.splines := by
    intro c p T h
    obtain ⟨sh, h1, h2⟩ := MicroTile.cross2D_good expansion bound fill c
    cases p with
    | none => rw [hdef] at h; exact tidy_of_shape h1 (h2.shaped _ _ _ h) (h2.inside _ _ _ h)
    | some p => exact tidy_of_shape h1 (h2.shaped _ _ _ h) (h2.inside _ _ _ h)
  refine seamless_of_fits (R := Agree fun _ => True) (by omega) ⟨tidy, ?_⟩ edgeCentres_cube (agree_of (fun _ _ _ => trivial) edgeCentres_pairs)
  rintro axis ha c c' hn p q T U hpq hT hU
  refine meets_plane (tidy _ _ _ hT) (tidy _ _ _ hU) (joins_eitherWay ?_)
  rcases hpq with ⟨rfl, rfl⟩ | ⟨P, Q, -, -, rfl, rfl, e⟩
  · rw [hdef] at hT hU
    exact cross2D_joins expansion bound fill axis ha c c' hn _ _ _ _ T U hT hU (by rw [entry_constant (by omega), entry_constant (by omega)])
  · exact cross2D_joins expansion bound fill axis ha c c' hn _ _ _ _ T U hT hU e

/-- C116 for `DoubleLattice`. -/
theorem double_lattice_watertight (sqrt2 contact : ℝ) (hs : 0 < sqrt2) : Spec.Seamless (createDoubleLattice sqrt2 contact) 2 [[1 / 2, 1 / 2]] fun _ => True := by
  have hdef : ∀ c, createDoubleLattice sqrt2 contact c none none = createDoubleLattice sqrt2 contact c (some (constant 1 2 (1 / 10))) none := fun c => rfl
  have some_ : ∀ c p T, createDoubleLattice sqrt2 contact c p none = some T → ∃ P, createDoubleLattice sqrt2 contact c (some P) none = some T := by
    intro c p T h
    cases p with
    | none => exact ⟨_, h⟩
    | some p => exact ⟨_, h⟩
  have tidy : ∀ c p T, createDoubleLattice sqrt2 contact c p none = some T → Tidy 2 2 T.splines := by
    intro c p T h
    obtain ⟨sh, h1, h2⟩ := MicroTile.double_lattice_good sqrt2 contact hs c
    obtain ⟨P, h⟩ := some_ c p T h
    exact tidy_of_shape h1 (h2.shaped _ _ _ h) (h2.inside _ _ _ h)
  refine seamless_of_fits (R := fun _ _ _ => True) (by omega) ⟨tidy, ?_⟩ (by simp [MicroGeometry.Spec.Cube]; norm_num) (fun _ _ _ _ _ => trivial)
  rintro axis ha c c' hn p q T U - hT hU
  obtain ⟨P, hT'⟩ := some_ c p T hT
  obtain ⟨Q, hU'⟩ := some_ c' q U hU
  exact meets_plane (tidy _ _ _ hT) (tidy _ _ _ hU) (joins_eitherWay (double_lattice_joins sqrt2 contact hs axis ha c c' P Q _ _ T U hT' hU'))

/-- C116 for `HollowOctagon`. -/
theorem hollow_octagon_watertight (contact : ℝ) : Spec.Seamless (createHollowOctagon contact) 2 [[1 / 2, 1 / 2]] fun _ => True := by
  have some_ : ∀ c p T, createHollowOctagon contact c p none = some T → ∃ P, createHollowOctagon contact c (some P) none = some T := by
    intro c p T h
    cases p with
    | none => exact ⟨_, h⟩
    | some p => exact ⟨_, h⟩
  have tidy : ∀ c p T, createHollowOctagon contact c p none = some T → Tidy 2 2 T.splines := by
    intro c p T h
    obtain ⟨P, h⟩ := some_ c p T h
    have hin := hollow_octagon_in_unit_square contact c P none T h
    simp only [createHollowOctagon, Option.getD_some, Option.ite_none_right_eq_some] at h
    obtain ⟨-, h⟩ := h
    cases c with
    | none =>
      simp only [Option.some.injEq] at h
      subst h
      exact tidy_of_shape (sh := shape (hollowOctagon (0 : ℚ) 0 0 0 0 0)) (by decide +kernel) rfl hin
    | some cl =>
      cases ht : hollowOctagonClosing cl contact P with
      | none => simp [ht] at h
      | some t =>
        simp only [ht, Option.map_some, Option.some.injEq] at h
        subst h
        simp only [hollowOctagonClosing, Option.ite_none_right_eq_some] at ht
        obtain ⟨-, ht⟩ := ht
        split_ifs at ht <;> rw [Option.some.injEq] at ht <;> subst ht
        · exact tidy_of_shape (sh := shape (hollowOctagonCloseXMin (0 : ℚ) 0 0 0 0 0)) (by decide +kernel) rfl hin
        · exact tidy_of_shape (sh := shape (hollowOctagonCloseXMax (0 : ℚ) 0 0 0 0 0)) (by decide +kernel) rfl hin
        · exact tidy_of_shape (sh := shape (hollowOctagonCloseYMin (0 : ℚ) 0 0 0 0 0)) (by decide +kernel) rfl hin
        · exact tidy_of_shape (sh := shape (hollowOctagonCloseYMax (0 : ℚ) 0 0 0 0 0)) (by decide +kernel) rfl hin
  refine seamless_of_fits (R := fun _ _ _ => True) (by omega) ⟨tidy, ?_⟩ (by simp [MicroGeometry.Spec.Cube]; norm_num) (fun _ _ _ _ _ => trivial)
  rintro axis ha c c' hn p q T U - hT hU
  obtain ⟨P, hT'⟩ := some_ c p T hT
  obtain ⟨Q, hU'⟩ := some_ c' q U hU
  exact meets_plane (tidy _ _ _ hT) (tidy _ _ _ hU) (hollow_octagon_joins contact axis ha c c' hn P Q _ _ T U hT' hU')

/-- C116 for `HollowCube`. -/
theorem hollow_cube_watertight : Spec.Seamless createHollowCube 3 (faceCentres ++ [[1 / 2, 1 / 2, 1 / 2]]) fun _ => True := by
  have hdef : ∀ c, createHollowCube (K := ℝ) c none none = createHollowCube c (some (constant 7 1 (1 / 5))) none := fun c => rfl
  have some_ : ∀ c p T, createHollowCube (K := ℝ) c p none = some T → ∃ P, createHollowCube c (some P) none = some T := by
    intro c p T h
    cases p with
    | none => exact ⟨_, h⟩
    | some p => exact ⟨_, h⟩
  have tidy : ∀ c p T, createHollowCube (K := ℝ) c p none = some T → Tidy 3 3 T.splines := by
    intro c p T h
    obtain ⟨sh, h1, h2⟩ := MicroTile.hollow_cube_good c
    obtain ⟨P, h⟩ := some_ c p T h
    exact tidy_of_shape h1 (h2.shaped _ _ _ h) (h2.inside _ _ _ h)
  have small : ∀ c p T axis (v : ℝ), createHollowCube c p none = some T → Small T.splines axis v := by
    intro c p T axis v h f hf _
    obtain ⟨P, hP, d, hd, last, rfl⟩ := mem_sides.1 hf
    obtain ⟨p', h⟩ := some_ c p T h
    have hs : shape T.splines = shape (hollowCube (0 : ℚ) 0 0 0 0 0 0 0 0) := by
      simp only [createHollowCube, Option.getD_some, Option.ite_none_right_eq_some, Option.some.injEq] at h
      rw [← h.2]
      rfl
    have hall : ∀ q ∈ shape (hollowCube (0 : ℚ) 0 0 0 0 0 0 0 0), q.1 = [1, 1, 1] := by decide +kernel
    have hdeg : P.degrees = [1, 1, 1] := hall (P.degrees, P.cps.map List.length) (by rw [← hs]; exact List.mem_map.2 ⟨P, hP, rfl⟩)
    simp only
    rw [face_length P hd, hdeg]
    rw [hdeg] at hd
    obtain rfl | rfl | rfl : d = 0 ∨ d = 1 ∨ d = 2 := by simp at hd; omega
    all_goals exact ⟨rfl, rfl⟩
  refine seamless_of_fits (R := Agree fun _ => True) (by omega) ⟨tidy, ?_⟩ ?_ (agree_of (fun _ _ _ => trivial) ?_)
  · rintro axis ha c c' hn p q T U hpq hT hU
    refine meets_small (small _ _ _ _ _ hT) (small _ _ _ _ _ hU) ?_
    rcases hpq with ⟨rfl, rfl⟩ | ⟨P, Q, -, -, rfl, rfl, e⟩
    · rw [hdef] at hT hU
      exact hollow_cube_joins axis ha c c' _ _ _ _ T U hT hU (by rw [entry_constant (by omega), entry_constant (by omega)])
    · exact hollow_cube_joins axis ha c c' _ _ _ _ T U hT hU e
  · intro v hv
    rcases List.mem_append.1 hv with h | h
    · exact faceCentres_cube v h
    · rw [List.mem_singleton] at h
      subst h
      simp [MicroGeometry.Spec.Cube]
      norm_num
  · intro axis ha
    obtain rfl | rfl | rfl : axis = 0 ∨ axis = 1 ∨ axis = 2 := by omega
    all_goals exact ⟨_, rfl, rfl, rfl⟩

/-- the faces of the crosses in the sides of the cell have four control points -/
theorem sides_four {w f : ℝ} {closure : Option String} {p : Mat ℝ} {t : List (Patch ℝ)} (h : Tiles.Sides w f closure p t) {axis : ℕ} (ha : axis < 3) {v : ℝ} (hv : v = 0 ∨ v = 1) :
    ∀ g ∈ faces t, OnPlane g axis v → g.length = 4 := by
  have bx : ∀ a b c d : ℝ, ∀ g ∈ Tiles.Spec.borderX a b c d, g.length = 4 := by
    intro a b c d g hg
    unfold Tiles.Spec.borderX at hg
    split_ifs at hg <;> simp at hg
    · rcases hg with rfl | rfl | rfl <;> rfl
    · rcases hg with rfl | rfl <;> rfl
  have by_ : ∀ a b c d : ℝ, ∀ g ∈ Tiles.Spec.borderY a b c d, g.length = 4 := by
    intro a b c d g hg
    unfold Tiles.Spec.borderY at hg
    split_ifs at hg <;> simp at hg
    · rcases hg with rfl | rfl | rfl <;> rfl
    · rcases hg with rfl | rfl <;> rfl
  have cs : ∀ a b c d : ℝ, ∀ g ∈ Tiles.Spec.closedSide a b c d, g.length = 4 := by
    intro a b c d g hg
    simp only [Tiles.Spec.closedSide, List.mem_cons, List.not_mem_nil, or_false] at hg
    rcases hg with rfl | rfl | rfl | rfl | rfl | rfl | rfl | rfl | rfl <;> rfl
  have sq : ∀ (i : ℕ) (a b : ℝ), ∀ g ∈ [Tiles.Spec.square i a b], g.length = 4 := by
    intro i a b g hg
    rw [List.mem_singleton] at hg
    subst hg
    rfl
  intro g hg hp
  obtain rfl | rfl | rfl : axis = 0 ∨ axis = 1 ∨ axis = 2 := by omega
  all_goals
    rcases h with ⟨-, ⟨a1, a2⟩, ⟨a3, a4⟩, a5, a6⟩ | ⟨-, ⟨a1, a2⟩, ⟨a3, a4⟩, a5, a6⟩ | ⟨-, ⟨a1, a2⟩, ⟨a3, a4⟩, a5, a6⟩ <;> rcases hv with rfl | rfl
  all_goals first
    | exact bx _ _ _ _ g ((a1 g).1 ⟨hg, hp⟩)
    | exact bx _ _ _ _ g ((a2 g).1 ⟨hg, hp⟩)
    | exact by_ _ _ _ _ g ((a3 g).1 ⟨hg, hp⟩)
    | exact by_ _ _ _ _ g ((a4 g).1 ⟨hg, hp⟩)
    | exact cs _ _ _ _ g ((a5 g).1 ⟨hg, hp⟩)
    | exact cs _ _ _ _ g ((a6 g).1 ⟨hg, hp⟩)
    | exact sq _ _ _ g ((a1 g).1 ⟨hg, hp⟩)
    | exact sq _ _ _ g ((a2 g).1 ⟨hg, hp⟩)
    | exact sq _ _ _ g ((a3 g).1 ⟨hg, hp⟩)
    | exact sq _ _ _ g ((a4 g).1 ⟨hg, hp⟩)
    | exact sq _ _ _ g ((a5 g).1 ⟨hg, hp⟩)
    | exact sq _ _ _ g ((a6 g).1 ⟨hg, hp⟩)

theorem small_of_four {t : List (Patch ℝ)} {axis : ℕ} {v : ℝ} (hdeg : ∀ P ∈ t, P.degrees.length = 3 ∧ ∀ p ∈ P.degrees, 1 ≤ p) (h : ∀ g ∈ faces t, OnPlane g axis v → g.length = 4) : Small t axis v := by
  intro f hf hp
  have h4 := h f.2 (mem_faces.2 ⟨f.1, hf⟩) hp
  refine ⟨?_, h4⟩
  obtain ⟨P, hP, d, hd, last, rfl⟩ := mem_sides.1 hf
  obtain ⟨h1, h2⟩ := hdeg P hP
  simp only at h4 ⊢
  rw [face_length P hd] at h4
  obtain ⟨a, b, e⟩ : ∃ a b, P.degrees.eraseIdx d = [a, b] := List.length_eq_two.1 (by rw [List.length_eraseIdx, if_pos hd, h1])
  have ha : 1 ≤ a := h2 a (List.mem_of_mem_eraseIdx (e ▸ by simp : a ∈ P.degrees.eraseIdx d))
  have hb : 1 ≤ b := h2 b (List.mem_of_mem_eraseIdx (e ▸ by simp : b ∈ P.degrees.eraseIdx d))
  rw [e] at h4 ⊢
  simp only [List.map_cons, List.map_nil, List.prod_cons, List.prod_nil, mul_one] at h4 ⊢
  have : a = 1 ∧ b = 1 := by constructor <;> nlinarith
  rw [this.1, this.2]

/-- shapes of patches with three parameters and positive degrees -/
def Solid (sh : List (List ℕ × List ℕ)) : Prop := ∀ q ∈ sh, q.1.length = 3 ∧ ∀ p ∈ q.1, 1 ≤ p

instance (sh : List (List ℕ × List ℕ)) : Decidable (Solid sh) := by unfold Solid; infer_instance

theorem degrees_of_shape {t : List (Patch ℝ)} {sh : List (List ℕ × List ℕ)} (hs : Solid sh) (h : shape t = sh) : ∀ P ∈ t, P.degrees.length = 3 ∧ ∀ p ∈ P.degrees, 1 ≤ p :=
  fun P hP => hs (P.degrees, P.cps.map List.length) (by rw [← h]; exact List.mem_map.2 ⟨P, hP, rfl⟩)

theorem cross3D_degrees (expansion bound fill : ℝ) (c : Option String) (p : Mat ℝ) (T : Tile ℝ) (h : createCross3D expansion bound fill c (some p) none = some T) :
    ∀ P ∈ T.splines, P.degrees.length = 3 ∧ ∀ p ∈ P.degrees, 1 ≤ p := by
  simp only [createCross3D, Option.getD_some, Option.ite_none_right_eq_some] at h
  obtain ⟨-, h⟩ := h
  cases c with
  | none =>
    simp only [Option.some.injEq] at h
    subst h
    exact degrees_of_shape (sh := shape (cross3D (0 : ℚ) 0 0 0 0 0 0 0 0)) (by decide +kernel) rfl
  | some cl =>
    simp only [cross3DClosing, Option.ite_none_right_eq_some] at h
    obtain ⟨-, h⟩ := h
    split at h
    · cases h
    rename_i t ht
    rw [Option.some.injEq] at h
    subst h
    unfold cross3DCloseBranch at ht
    split_ifs at ht <;> rw [Option.some.injEq] at ht <;> subst ht
    · exact degrees_of_shape (sh := shape (closeZeros cross3DCloseZMin (0 : ℚ))) (by decide +kernel) rfl
    · exact degrees_of_shape (sh := shape (closeZeros cross3DCloseZMax (0 : ℚ))) (by decide +kernel) rfl

theorem cross3DLinear_degrees (expansion bound fill : ℝ) (c : Option String) (p : Mat ℝ) (T : Tile ℝ) (h : createCross3DLinear expansion bound fill c (some p) none = some T) :
    ∀ P ∈ T.splines, P.degrees.length = 3 ∧ ∀ p ∈ P.degrees, 1 ≤ p := by
  simp only [createCross3DLinear, Option.getD_some, Option.ite_none_right_eq_some] at h
  obtain ⟨-, h⟩ := h
  cases c with
  | none =>
    simp only [Option.some.injEq] at h
    subst h
    exact degrees_of_shape (sh := shape (cross3DLinear (0 : ℚ) 0 0 0 0 0 0 0)) (by decide +kernel) rfl
  | some cl =>
    simp only [cross3DLinearClosing, Option.ite_none_right_eq_some] at h
    obtain ⟨-, h⟩ := h
    split at h
    · cases h
    rename_i t ht
    rw [Option.some.injEq] at h
    subst h
    unfold cross3DCloseBranch at ht
    split_ifs at ht <;> rw [Option.some.injEq] at ht <;> subst ht
    · exact degrees_of_shape (sh := shape (closeZeros cross3DLinearCloseZMin (0 : ℚ))) (by decide +kernel) rfl
    · exact degrees_of_shape (sh := shape (closeZeros cross3DLinearCloseZMax (0 : ℚ))) (by decide +kernel) rfl

/-- All radii are smaller than the largest accepted one. -/
def Spec.RadiusBelow (expansion : ℝ) (φ : List ℝ → List ℝ) : Prop := ∀ place, ∀ y ∈ φ place, y < min (1 / 2) (1 / 2 / expansion)

/-- C116 for `Cross3D`, for radii smaller than the largest accepted one. -/
theorem cross3D_watertight_partial (expansion bound fill : ℝ) : Spec.Seamless (createCross3D expansion bound fill) 3 faceCentres (Spec.RadiusBelow expansion) := by
  have hdef : ∀ c, createCross3D expansion bound fill c none none = createCross3D expansion bound fill c (some (constant 6 1 (1 / 5))) none := fun c => rfl
  have hsmall : ∀ c T, createCross3D expansion bound fill c none none = some T → RadiiBelow expansion (constant 6 1 (1 / 5)) := by
    intro c T h
    simp only [createCross3D, Option.ite_none_right_eq_some, Bool.and_eq_true, decide_eq_true_eq] at h
    obtain ⟨⟨⟨⟨⟨h1, h2⟩, _⟩, _⟩, _⟩, -⟩ := h
    intro r hr y hy
    rw [List.eq_of_mem_replicate hr] at hy
    rw [List.eq_of_mem_replicate hy]
    refine lt_min (by norm_num) ?_
    rw [lt_div_iff₀ (by linarith)]
    linarith
  have tidy : ∀ c p T, createCross3D expansion bound fill c p none = some T → Tidy 3 3 T.splines := by
    intro c p T h
    obtain ⟨sh, h1, h2⟩ := MicroTile.cross3D_good expansion bound fill c
    cases p with
    | none => rw [hdef] at h; exact tidy_of_shape h1 (h2.shaped _ _ _ h) (h2.inside _ _ _ h)
    | some p => exact tidy_of_shape h1 (h2.shaped _ _ _ h) (h2.inside _ _ _ h)
  have main : ∀ axis < 3, ∀ c c', Neighbours axis c c' → ∀ P Q T U, RadiiBelow expansion P → RadiiBelow expansion Q → entry P (2 * axis + 1) 0 = entry Q (2 * axis) 0 →
      createCross3D expansion bound fill c (some P) none = some T → createCross3D expansion bound fill c' (some Q) none = some U → Meets T.splines U.splines axis := by
    intro axis ha c c' hn P Q T U hP hQ e hT hU
    exact meets_small (small_of_four (cross3D_degrees _ _ _ _ _ _ hT) (sides_four (cross3D_create_sides _ _ _ _ _ _ _ hP hT) ha (Or.inr rfl)))
      (small_of_four (cross3D_degrees _ _ _ _ _ _ hU) (sides_four (cross3D_create_sides _ _ _ _ _ _ _ hQ hU) ha (Or.inl rfl)))
      (cross3D_joins_partial expansion bound fill axis ha c c' hn P Q _ _ T U hT hU hP hQ e)
  refine seamless_of_fits (R := Agree (RadiiBelow expansion)) (by omega) ⟨tidy, ?_⟩ faceCentres_cube (agree_of (fun φ hφ P r hr y hy => ?_) faceCentres_pairs)
  · rintro axis ha c c' hn p q T U hpq hT hU
    rcases hpq with ⟨rfl, rfl⟩ | ⟨P, Q, hP, hQ, rfl, rfl, e⟩
    · exact main axis ha c c' hn _ _ T U (hsmall _ _ hT) (hsmall _ _ hU) (by rw [entry_constant (by omega), entry_constant (by omega)]) (hdef c ▸ hT) (hdef c' ▸ hU)
    · exact main axis ha c c' hn _ _ T U hP hQ e hT hU
  · obtain ⟨z, -, rfl⟩ := List.mem_map.1 hr
    exact hφ z y hy

/-- C116 for `Cross3DLinear`, for radii smaller than the largest accepted one. -/
theorem cross3DLinear_watertight_partial (expansion bound fill : ℝ) : Spec.Seamless (createCross3DLinear expansion bound fill) 3 faceCentres (Spec.RadiusBelow expansion) := by
  have hdef : ∀ c, createCross3DLinear expansion bound fill c none none = createCross3DLinear expansion bound fill c (some (constant 6 1 (1 / 5))) none := fun c => rfl
  have hsmall : ∀ c T, createCross3DLinear expansion bound fill c none none = some T → RadiiBelow expansion (constant 6 1 (1 / 5)) := by
    intro c T h
    simp only [createCross3DLinear, Option.ite_none_right_eq_some, Bool.and_eq_true, decide_eq_true_eq] at h
    obtain ⟨⟨⟨⟨⟨h1, h2⟩, _⟩, _⟩, _⟩, -⟩ := h
    intro r hr y hy
    rw [List.eq_of_mem_replicate hr] at hy
    rw [List.eq_of_mem_replicate hy]
    refine lt_min (by norm_num) ?_
    rw [lt_div_iff₀ (by linarith)]
    linarith
  have tidy : ∀ c p T, createCross3DLinear expansion bound fill c p none = some T → Tidy 3 3 T.splines := by
    intro c p T h
    obtain ⟨sh, h1, h2⟩ := MicroTile.cross3D_linear_good expansion bound fill c
    cases p with
    | none => rw [hdef] at h; exact tidy_of_shape h1 (h2.shaped _ _ _ h) (h2.inside _ _ _ h)
    | some p => exact tidy_of_shape h1 (h2.shaped _ _ _ h) (h2.inside _ _ _ h)
  have main : ∀ axis < 3, ∀ c c', Neighbours axis c c' → ∀ P Q T U, RadiiBelow expansion P → RadiiBelow expansion Q → entry P (2 * axis + 1) 0 = entry Q (2 * axis) 0 →
      createCross3DLinear expansion bound fill c (some P) none = some T → createCross3DLinear expansion bound fill c' (some Q) none = some U → Meets T.splines U.splines axis := by
    intro axis ha c c' hn P Q T U hP hQ e hT hU
    exact meets_small (small_of_four (cross3DLinear_degrees _ _ _ _ _ _ hT) (sides_four (cross3DLinear_create_sides _ _ _ _ _ _ _ hP hT) ha (Or.inr rfl)))
      (small_of_four (cross3DLinear_degrees _ _ _ _ _ _ hU) (sides_four (cross3DLinear_create_sides _ _ _ _ _ _ _ hQ hU) ha (Or.inl rfl)))
      (cross3DLinear_joins_partial expansion bound fill axis ha c c' hn P Q _ _ T U hT hU hP hQ e)
  refine seamless_of_fits (R := Agree (RadiiBelow expansion)) (by omega) ⟨tidy, ?_⟩ faceCentres_cube (agree_of (fun φ hφ P r hr y hy => ?_) faceCentres_pairs)
  · rintro axis ha c c' hn p q T U hpq hT hU
    rcases hpq with ⟨rfl, rfl⟩ | ⟨P, Q, hP, hQ, rfl, rfl, e⟩
    · exact main axis ha c c' hn _ _ T U (hsmall _ _ hT) (hsmall _ _ hU) (by rw [entry_constant (by omega), entry_constant (by omega)]) (hdef c ▸ hT) (hdef c' ▸ hU)
    · exact main axis ha c c' hn _ _ T U hP hQ e hT hU
  · obtain ⟨z, -, rfl⟩ := List.mem_map.1 hr
    exact hφ z y hy

theorem tidy_decode {n : ℕ} {table : ℕ → ℝ} {code : List (Patch ℕ)} (h : MicroTile.Shaped n n (shape code)) (hin : InUnitCube (decode table code)) : Tidy n n (decode table code) := by
  refine tidy_of_shape h ?_ hin
  unfold shape decode
  rw [List.map_map]
  refine List.map_congr_left fun P _ => ?_
  simp [decodePatch, Function.comp_def]

/-- C116 for `Armadillo`. -/
theorem armadillo_watertight (contact : ℝ) : Spec.Seamless (createArmadillo contact) 3 [[1 / 2, 1 / 2, 1 / 2]] fun _ => True := by
  have hsh : ∀ c ∈ armadilloAll, MicroTile.Shaped 3 3 (shape c) := by decide +kernel
  refine seamless_of_fits (R := fun _ _ _ => True) (by omega) ⟨?_, ?_⟩ (by simp [MicroGeometry.Spec.Cube]; norm_num) (fun _ _ _ _ _ => trivial)
  · intro c p T h
    have hin := armadillo_in_unit_cube contact c p none T h
    obtain ⟨w, hw, hh, hi, code, hc, e⟩ := armadillo_cases h
    rw [e] at hin ⊢
    exact tidy_decode (hsh code (armadilloCodes_mem hc)) hin
  · rintro axis ha c c' hn p q T U - hT hU
    exact armadillo_joins contact axis ha c c' hn p q _ _ T U hT hU

/-- C116 for `InverseCross3D` with the default separator distance. -/
theorem inverse_cross_3D_watertight_partial (expansion bound fill : ℝ) : Spec.Seamless (createInverseCross3D expansion bound fill none) 3 faceCentres fun _ => True := by
  have hdef : ∀ c, createInverseCross3D expansion bound fill none c none none = createInverseCross3D expansion bound fill none c (some (constant 6 1 (1 / 5))) none := fun c => rfl
  have hsh : MicroTile.Shaped 3 3 (shape inverseCross3DCode) ∧ MicroTile.Shaped 3 3 (shape inverseCross3DCloseZMinCode) ∧ MicroTile.Shaped 3 3 (shape inverseCross3DCloseZMaxCode) := by decide +kernel
  refine seamless_of_fits (R := Agree fun _ => True) (by omega) ⟨?_, ?_⟩ faceCentres_cube (agree_of (fun _ _ _ => trivial) faceCentres_pairs)
  · intro c p T h
    have hin := inverse_cross_3D_in_unit_cube_partial expansion bound fill none (by norm_num) c p none T h
    obtain ⟨s, a, b, c', e, f, g, -, -, -, -, hT⟩ := inverse_cases h
    rcases hT with ⟨-, e⟩ | ⟨-, ⟨-, e⟩ | ⟨-, e⟩⟩ <;> rw [e] at hin ⊢
    · exact tidy_decode hsh.1 hin
    · exact tidy_decode hsh.2.1 hin
    · exact tidy_decode hsh.2.2 hin
  · rintro axis ha c c' hn p q T U hpq hT hU
    rcases hpq with ⟨rfl, rfl⟩ | ⟨P, Q, -, -, rfl, rfl, e⟩
    · rw [hdef] at hT hU
      exact inverse_cross_3D_default_joins expansion bound fill axis ha c c' hn _ _ _ _ T U hT hU (by rw [entry_constant (by omega), entry_constant (by omega)])
    · exact inverse_cross_3D_default_joins expansion bound fill axis ha c c' hn _ _ _ _ T U hT hU e

/-- C116 for `HollowOctagonExtrude` with the same parameter everywhere. -/
theorem hollow_octagon_extrude_watertight_partial (contact : ℝ) : Spec.Seamless (createHollowOctagonExtrude contact) 3 [[1 / 2, 1 / 2, 1 / 2]] fun φ => ∃ r, ∀ place, φ place = r := by
  refine seamless_of_fits (R := fun _ p q => p = q) (by omega) ⟨?_, ?_⟩ (by simp [MicroGeometry.Spec.Cube]; norm_num) ?_
  · intro c p T h
    have hin := hollow_octagon_extrude_in_unit_cube contact c p none T h
    simp only [createHollowOctagonExtrude, Option.ite_none_right_eq_some, Option.some.injEq] at h
    obtain ⟨-, rfl⟩ := h
    exact tidy_of_shape (sh := shape (hollowOctagonExtrude (0 : ℚ) 0 0 0 0 0)) (by decide +kernel) rfl hin
  · rintro axis ha c c' hn p q T U e hT hU
    exact hollow_octagon_extrude_joins_partial contact axis ha c c' p q _ _ T U hT hU fun _ => e
  · rintro axis - p q (⟨rfl, rfl⟩ | ⟨φ, P, Q, ⟨r, hr⟩, rfl, rfl, h1, h2, -⟩)
    · rfl
    · rw [show φ = fun _ => r from funext hr, List.map_const', List.map_const', h1, h2]

/-! ### a concrete case -/

/-- If all tiles are accepted, the microstructure is created. -/
theorem created {tol : ℝ} (ht : 0 < tol) {lib : Library ℝ} (hL : Spec.Contract tol (BezierSpline.Clamped tol) lib) (x : Settings ℝ) (face : Option Char) {n dim : ℕ} (hn : 0 < n)
    (hC : Spec.Composes x.deformation.weights.isSome lib.compose) {make : Option String → Option (Mat ℝ) → Option (List (Mat ℝ)) → Option (Tile ℝ)}
    (hx : x.createTile = fun p c => (MicroTile.createTile make face p none c).map Prod.fst) (htidy : ∀ c p T, make c p none = some T → Tidy n n T.splines)
    (heval : ∀ v ∈ x.evaluationPoints, Spec.Cube n v) {ds : List (Dim ℝ)} {tiles : List ℕ} (hds : ds.length = n) (hs : Spec.SpanWise tol x dim ds tiles) {breaks : List (List ℝ)}
    (hb : List.zipWith (fun d t => Micro.Spec.subdivide d.uniqueKnots fun _ => t) ds tiles = breaks)
    (cl : List (Option MicroCreate.Side)) (hcl : MicroCreate.closures (Spec.elements breaks) face = some cl)
    (hacc : ∀ e < (Spec.elements breaks).prod, (make ((cl.getD e none).map (MicroTile.closureName (face.getD ' ')))
      (x.parametrization.map fun f => f (x.evaluationPoints.map (Spec.place breaks (digits (Spec.elements breaks) e)))) none).isSome) :
    (MicroGeometry.create lib tol x face true).isSome := by
  have hT : ∀ e, ∃ T : Tile ℝ, e < (Spec.elements breaks).prod → make ((cl.getD e none).map (MicroTile.closureName (face.getD ' ')))
      (x.parametrization.map fun f => f (x.evaluationPoints.map (Spec.place breaks (digits (Spec.elements breaks) e)))) none = some T := by
    intro e
    by_cases he : e < (Spec.elements breaks).prod
    · obtain ⟨T, hT⟩ := Option.isSome_iff_exists.1 (hacc e he)
      exact ⟨T, fun _ => hT⟩
    · exact ⟨⟨[], none⟩, fun h => absurd h he⟩
  choose T hT using hT
  obtain ⟨placed, h, -⟩ := MicroGeometry.microstructure_span_wise ht hL x face dim hC hs.valid hs.rows ds tiles (List.length_pos_iff.1 (by omega)) hs.count hs.tiling hs.knots hs.spans hs.continuous
    (by rw [hds]; exact heval) cl (fun e => (T e).splines.map bezier) (by rw [hb]; exact hcl) (by
      rw [hb]
      intro e he
      refine ⟨?_, fun t ht => ?_⟩
      · have := usesClass_eq make face (x.parametrization.map fun f => f (x.evaluationPoints.map (Spec.place breaks (digits (Spec.elements breaks) e)))) (cl.getD e none)
        unfold usesClass at this
        rw [hx]
        simp only
        rw [this, hT e he, Option.map_some]
      · obtain ⟨P, hP, rfl⟩ := List.mem_map.1 ht
        rw [hds]
        exact tidy_tilePatch (htidy _ _ _ (hT e he)) hP)
  rw [h]
  rfl

/-- Cross2D tiles, two in the first direction, closed there; the radius grows with the first coordinate. -/
noncomputable def sampleCross : Settings ℝ where
  deformation := MicroTile.samplePlate
  tiling := [2, 1]
  parametrization := some fun pos => pos.map fun q => [1 / 5 + q.getD 0 0 / 10]
  evaluationPoints := edgeCentres
  createTile := fun p c => (MicroTile.createTile (createCross2D 1 (1 / 10) (1 / 2)) (some 'x') p none c).map Prod.fst

/-- the assumptions can be met -/
theorem watertight_sample : ∃ lib : Library ℝ, Spec.IsWatertight sampleCross 2 2 2 [[0, 1 / 2, 1], [0, 1]] (some 'x') (MicroGeometry.create lib (1 / 1000) sampleCross (some 'x') true) ∧
    (MicroGeometry.create lib (1 / 1000) sampleCross (some 'x') true).isSome := by
  have hval : ValidSpline MicroTile.samplePlate := by
    refine ⟨by rintro kvs ⟨⟩, ?_, by simp [MicroTile.samplePlate, netSize, directions, Direction.size], by rintro ws ⟨⟩⟩
    intro d hd
    simp only [directions, MicroTile.samplePlate, List.mem_map] at hd
    obtain ⟨p, _, rfl⟩ := hd
    rintro kv ⟨⟩
  have hbr : List.zipWith (fun (d : Dim ℝ) t => Micro.Spec.subdivide d.uniqueKnots fun _ => t) [(⟨1, 0, [], 1⟩ : Dim ℝ), ⟨1, 0, [], 1⟩] [2, 1] = [[0, 1 / 2, 1], [0, 1]] := by
    have hu : (⟨1, 0, [], 1⟩ : Dim ℝ).uniqueKnots = [0, 1] := rfl
    have hr2 : List.range 2 = [0, 1] := rfl
    rw [List.zipWith_cons_cons, List.zipWith_cons_cons, List.zipWith_nil_left, hu]
    unfold Micro.Spec.subdivide
    simp [hr2]
  have hel : Spec.elements [[(0 : ℝ), 1 / 2, 1], [0, 1]] = [2, 1] := rfl
  have hs : Spec.SpanWise (1 / 1000) sampleCross 2 [⟨1, 0, [], 1⟩, ⟨1, 0, [], 1⟩] [2, 1] := by
    refine ⟨hval, by simp [sampleCross, MicroTile.samplePlate], rfl, rfl, ⟨rfl, rfl⟩, ?_, by simp⟩
    refine List.Forall₂.cons ⟨by norm_num, by norm_num, by simp, ?_⟩ (List.Forall₂.cons ⟨by norm_num, by norm_num, by simp, ?_⟩ List.Forall₂.nil)
    all_goals
      simp [KnotInsertion.Dim.groups]
      norm_num
  have htidy : ∀ c p T, createCross2D (1 : ℝ) (1 / 10) (1 / 2) c p none = some T → Tidy 2 2 T.splines := by
    intro c p T h
    obtain ⟨sh, h1, h2⟩ := MicroTile.cross2D_good 1 (1 / 10) (1 / 2) c
    cases p with
    | none =>
      change createCross2D (1 : ℝ) (1 / 10) (1 / 2) c (some (constant 4 1 (1 / 5))) none = some T at h
      exact tidy_of_shape h1 (h2.shaped _ _ _ h) (h2.inside _ _ _ h)
    | some p => exact tidy_of_shape h1 (h2.shaped _ _ _ h) (h2.inside _ _ _ h)
  refine ⟨⟨MicroGeometry.someInsertAll (1 / 1000), BezierSpline.someInsert (1 / 1000), BezierSpline.missing, BezierSpline.runs, fun a b => some (BezierAlgebra.exact.compose a b),
    MicroGeometry.exactEvaluate⟩, ?_⟩
  have hL := MicroGeometry.contract_exists (tol := (1 / 1000 : ℝ)) (by norm_num) fun a b => some (BezierAlgebra.exact.compose a b)
  have hsome := created (tol := (1 / 1000 : ℝ)) (by norm_num) hL sampleCross (some 'x') (n := 2) (by omega) MicroGeometry.composes_exists rfl htidy edgeCentres_cube rfl hs hbr
    [some .lower, some .upper] (by rw [hel]; rfl) (by
      rw [hel]
      intro e he
      have he2 : e < 2 := by simpa using he
      have hpl : sampleCross.evaluationPoints.map (Spec.place [[(0 : ℝ), 1 / 2, 1], [0, 1]] (digits [2, 1] e)) =
          [[(e : ℝ) / 2, 1 / 2], [((e : ℝ) + 1) / 2, 1 / 2], [(2 * (e : ℝ) + 1) / 4, 0], [(2 * (e : ℝ) + 1) / 4, 1]] := by
        obtain rfl | rfl : e = 0 ∨ e = 1 := by omega
        all_goals
          simp [sampleCross, edgeCentres, MicroGeometry.Spec.place, digits]
          try norm_num
      rw [hpl]
      have he1 : (e : ℝ) ≤ 1 := by exact_mod_cast (by omega : e ≤ 1)
      have he0 : (0 : ℝ) ≤ e := Nat.cast_nonneg e
      have hb1 : (0 : ℝ) < 1 / 5 + e / 2 / 10 ∧ (1 / 5 + e / 2 / 10 : ℝ) < 1 / 2 := ⟨by linarith, by linarith⟩
      have hb2 : (0 : ℝ) < 1 / 5 + (e + 1) / 2 / 10 ∧ (1 / 5 + (e + 1) / 2 / 10 : ℝ) < 1 / 2 := ⟨by linarith, by linarith⟩
      have hb3 : (0 : ℝ) < 1 / 5 + (2 * e + 1) / 4 / 10 ∧ (1 / 5 + (2 * e + 1) / 4 / 10 : ℝ) < 1 / 2 := ⟨by linarith, by linarith⟩
      have hw : Tiles.within 0 (1 / 2) [[(1 / 5 + e / 2 / 10 : ℝ)], [1 / 5 + (e + 1) / 2 / 10], [1 / 5 + (2 * e + 1) / 4 / 10], [1 / 5 + (2 * e + 1) / 4 / 10]] = true := by
        rw [Tiles.within_iff]
        simp only [List.mem_cons, List.not_mem_nil, or_false]
        rintro r (rfl | rfl | rfl | rfl) y hy <;> rw [List.mem_singleton] at hy <;> subst hy <;> assumption
      have hmin : min (1 / 2) (1 / 2 / 1) = (1 / 2 : ℝ) := by norm_num
      have hcl : ∃ c, ([some MicroCreate.Side.lower, some MicroCreate.Side.upper].getD e none).map (MicroTile.closureName ((some 'x').getD ' ')) = some c ∧ (c = "x_min" ∨ c = "x_max") := by
        obtain rfl | rfl : e = 0 ∨ e = 1 := by omega
        · exact ⟨_, rfl, Or.inl rfl⟩
        · exact ⟨_, rfl, Or.inr rfl⟩
      obtain ⟨c, hc, hc'⟩ := hcl
      rw [hc]
      simp only [sampleCross, Option.map_some, List.map_cons, List.map_nil, List.getD_cons_zero]
      unfold Tiles.createCross2D Tiles.cross2DClosing
      simp only [Option.getD_some, hmin, hw]
      rcases hc' with rfl | rfl <;> norm_num [Tiles.checkParams, Tiles.checkDerivatives, Tiles.cross2DCloseTile, Tiles.cross2DCloseBranch]
      rw [if_neg (by decide)]
      rfl)
  refine ⟨?_, hsome⟩
  have h := (cross2D_watertight 1 (1 / 10) (1 / 2) (1 / 1000) _ sampleCross (some 'x') 2 (by norm_num) hL MicroGeometry.composes_exists rfl rfl
    (fun f hf => ⟨_, trivial, (Option.some.inj hf).symm⟩)).1 _ _ rfl hs hsome
  rw [hbr] at h
  exact h

end Splinepy.Watertight
