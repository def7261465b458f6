import Verif.Props.VolumeFields

/-!
C91 for multipatches of volumes: what is drawn of them.
-/
namespace Splinepy.FieldData
open Splinepy.Index (Spline)
open Splinepy.Spec Splinepy.Mesh

variable {K : Type} [Field K] [LinearOrder K] [IsStrictOrderedRing K]

/-- The cells of face `b` of a volume for a resolution: those of an equidistant grid in the two directions of the face, with the points of the volume at the end of the other direction. -/
def Spec.faceCells (dim r : ℕ) (s : Spline K (List K)) (b : ℕ) : List (List (Option (List K))) :=
  let rest := (directions s).eraseIdx (b / 2)
  (Mesh.Spec.gridCells (rest.getD 0 ⟨0, none⟩) (rest.getD 1 ⟨0, none⟩) r r).map fun c => c.map fun u =>
    some (Spec.evaluate dim s (u.insertIdx (b / 2) (Boundary.Spec.faceParameter ((directions s).getD (b / 2) ⟨0, none⟩) b)))

theorem faces_draw (patches : List (Spline K (List K))) (h : ∀ p ∈ patches, Spec.Volume p) (dim r : ℕ) (ids : List ℕ) (hids : ∀ i ∈ ids, i < 6 * patches.length) :
    ∃ bs, (ids.mapM fun i => patches[i / 6]?.bind fun p => Boundary.boundary p (i % 6)) = some bs ∧
      (∀ b ∈ bs, (sample (Spec.evaluate dim b) (directions b) [r, r]).length = r ^ 2) ∧
      (bs.flatMap fun b => Mesh.Spec.drawn ⟨sample (Spec.evaluate dim b) (directions b) [r, r], quadFaces r r⟩) =
        ids.flatMap fun i => (patches[i / 6]?.map fun p => Spec.faceCells dim r p (i % 6)).getD [] := by
  induction ids with
  | nil => exact ⟨[], rfl, by simp, rfl⟩
  | cons i ids ih =>
    obtain ⟨bs, e, hl, hd⟩ := ih fun j hj => hids j (.tail _ hj)
    have hi : i / 6 < patches.length := by have := hids i (.head _); omega
    have hv := h _ (List.getElem_mem hi)
    have h6 : i % 6 < 6 := by omega
    obtain ⟨d, da, db, h1, h2⟩ := erase_three hv.three h6
    obtain ⟨q, e1, e2, e3⟩ := face_draw hv.valid (by have := volume_degrees hv.valid hv.three; omega) h1 (hv.clamped _ h6 d h1) h2 dim
    refine ⟨q :: bs, ?_, ?_, ?_⟩
    · simp [List.mapM_cons, List.getElem?_eq_getElem hi, e1, e]
    · intro b hb
      rcases List.mem_cons.1 hb with rfl | hb
      · rw [e2, Mesh.sample_length, pow_two]
      · exact hl b hb
    · rw [List.flatMap_cons, List.flatMap_cons, hd, e2]
      congr 1
      rw [List.getElem?_eq_getElem hi, Option.map_some, Option.getD_some]
      have hd' : (directions patches[i / 6]).getD (i % 6 / 2) ⟨0, none⟩ = d := by rw [List.getD_eq_getElem?_getD, h1]; rfl
      unfold Spec.faceCells
      rw [h2, hd']
      exact e3 r r

/-- C91: for an integer resolution, the faces of a multipatch of volumes are, in the order of the table of interfaces, the cells of the sampled grids of exactly the faces without neighbour, with the
points of their volume. -/
theorem multipatch_volume_faces_draw (patches : List (Spline K (List K))) (h : ∀ p ∈ patches, Spec.Volume p) (dim r : ℕ) (detect : List (List K) → Option (List Int)) (stored : Option (List Int))
    (t : List Int) (ht : interfaceTable (Spec.evaluate dim) detect stored patches = some t) (hl : t.length = 6 * patches.length) :
    ∃ shown, volumeMultipatch (Spec.evaluate dim) detect r stored patches = some shown ∧
      Mesh.Spec.drawn shown = (Spec.outer t).flatMap fun i => (patches[i / 6]?.map fun p => Spec.faceCells dim r p (i % 6)).getD [] := by
  obtain ⟨bs, e, hlen, hd⟩ := faces_draw patches h dim r (Spec.outer t) fun i hi => by have := outer_lt t hi; omega
  unfold volumeMultipatch boundaryFaces
  rw [ht]
  simp only [Option.bind_some]
  rw [ids_outer, e]
  refine ⟨_, rfl, ?_⟩
  rw [patch_cells_draw _ _ _ ?_ ?_, List.flatMap_map, ← hd]
  · intro s hs
    obtain ⟨b, hb, rfl⟩ := List.mem_map.1 hs
    exact hlen b hb
  · rw [pow_two]
    exact quadFaces_lt r r

/-- two boxes with a common face and a stored table: the ten other faces are drawn -/
example : ∃ shown, volumeMultipatch (Spec.evaluate 3) (fun _ => none) 2 (some [-1, 6, -2, -1, -1, -1, 1, -1, -1, -1, -3, -1]) boxes = some shown ∧
    Mesh.Spec.drawn shown = ([0, 2, 3, 4, 5, 7, 8, 9, 10, 11] : List ℕ).flatMap fun i => (boxes[i / 6]?.map fun p => Spec.faceCells 3 2 p (i % 6)).getD [] :=
  multipatch_volume_faces_draw boxes (by
    intro p hp
    simp only [boxes, List.mem_cons, List.not_mem_nil, or_false] at hp
    rcases hp with rfl | rfl <;> simpa using corners_volume _) 3 2 (fun _ => none) _ [-1, 6, -2, -1, -1, -1, 1, -1, -1, -1, -3, -1] rfl rfl

end Splinepy.FieldData
