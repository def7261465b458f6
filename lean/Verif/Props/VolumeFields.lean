import Verif.Model.VolumeFields
import Verif.Props.FieldData
import Verif.Props.MultipatchData
import Verif.Props.Multipatch
import Verif.Props.Interfaces

/-!
C103 for multipatches of volumes.
-/
namespace Splinepy.FieldData
open Splinepy.Index (Spline)
open Splinepy.Spec Splinepy.Mesh

set_option linter.unusedSectionVars false
variable {K : Type} [Field K] [LinearOrder K] [IsStrictOrderedRing K]

/-- A volume whose faces all have clamped knot vectors. -/
structure Spec.Volume (s : Spline K (List K)) : Prop where
  valid : ValidSpline s
  three : (directions s).length = 3
  clamped : ∀ b < 6, ∀ d, (directions s)[b / 2]? = some d → Boundary.Spec.ClampedAt d b

theorem volume_degrees {s : Spline K (List K)} (hs : ValidSpline s) (h : (directions s).length = 3) : s.degrees.length = 3 := by
  unfold directions at h
  cases hk : s.knotVectors with
  | none => rw [hk] at h; simpa using h
  | some kvs =>
    rw [hk] at h
    have := hs.knots kvs hk
    simp at h
    omega

theorem erase_three {s : Spline K (List K)} (h : (directions s).length = 3) {b : ℕ} (hb : b < 6) :
    ∃ d da db, (directions s)[b / 2]? = some d ∧ (directions s).eraseIdx (b / 2) = [da, db] := by
  have h2 : ((directions s).eraseIdx (b / 2)).length = 2 := by rw [List.length_eraseIdx, if_pos (by omega)]; omega
  obtain ⟨da, db, e⟩ := List.length_eq_two.1 h2
  exact ⟨_, da, db, List.getElem?_eq_getElem (by omega), e⟩

/-- one face of a volume -/
theorem volume_face {s : Spline K (List K)} (hs : Spec.Volume s) {b : ℕ} (hb : b < 6) (dim r : ℕ) :
    ∃ q, Boundary.boundary s b = some q ∧ (sample (Spec.evaluate dim q) (directions q) [r, r]).length = r ^ 2 := by
  obtain ⟨d, da, db, h1, h2⟩ := erase_three hs.three hb
  obtain ⟨q, e1, e2, -⟩ := face_vertices hs.valid (by have := volume_degrees hs.valid hs.three; omega) h1 (hs.clamped b hb d h1) h2 dim
  refine ⟨q, e1, ?_⟩
  have := sample_length (Spec.evaluate dim q) (directions q) r
  rw [e2] at this ⊢
  exact this

/-- one face of a volume and of its data -/
theorem face_match {s data : Spline K (List K)} (hs : Spec.Volume s) (hdata : Spec.Volume data) (hb : Spec.SameBounds s data) {b : ℕ} (h6 : b < 6) (dim r : ℕ) :
    ∃ q q', Boundary.boundary s b = some q ∧ Boundary.boundary data b = some q' ∧
      Spec.Match s dim (Spec.evaluate dim data) (sample (Spec.evaluate dim q) (directions q) [r, r]) (sample (Spec.evaluate dim q') (directions q') [r, r]) := by
  obtain ⟨d, da, db, h1, h2⟩ := erase_three hs.three h6
  obtain ⟨d', da', db', h1', h2'⟩ := erase_three hdata.three h6
  obtain ⟨q, e1, e2, e3⟩ := face_vertices hs.valid (by have := volume_degrees hs.valid hs.three; omega) h1 (hs.clamped b h6 d h1) h2 dim
  obtain ⟨q', e1', e2', e3'⟩ := face_vertices hdata.valid (by have := volume_degrees hdata.valid hdata.three; omega) h1' (hdata.clamped b h6 d' h1') h2' dim
  refine ⟨q, q', e1, e1', ?_⟩
  have lows := congrArg (fun l => List.eraseIdx l (b / 2)) hb.1
  have ups := congrArg (fun l => List.eraseIdx l (b / 2)) hb.2
  simp only [List.eraseIdx_map, h2, h2', List.map_cons, List.map_nil, List.cons.injEq, and_true] at lows ups
  have low := congrArg (fun l => l[b / 2]?) hb.1
  have up := congrArg (fun l => l[b / 2]?) hb.2
  simp only [List.getElem?_map, h1, h1', Option.map_some, Option.some.injEq] at low up
  have hface : Boundary.Spec.faceParameter d' b = Boundary.Spec.faceParameter d b := by
    unfold Boundary.Spec.faceParameter
    rw [low, up]
  rw [e2, e2', (e3 r r).1, (e3' r r).1, lows.1, lows.2, ups.1, ups.2, hface]
  exact ⟨_, (e3 r r).2, rfl, rfl⟩

/-- the pair of patch and data to which the face with number `i` belongs -/
def Spec.owner (pairs : List (Spline K (List K) × Spline K (List K))) (ids : List ℕ) : List (Spline K (List K) × Spline K (List K)) := ids.filterMap fun i => pairs[i / 6]?

theorem faces_match (pairs : List (Spline K (List K) × Spline K (List K))) (h : ∀ p ∈ pairs, Spec.Volume p.1 ∧ Spec.Volume p.2 ∧ Spec.SameBounds p.1 p.2) (dim r : ℕ) (ids : List ℕ)
    (hids : ∀ i ∈ ids, i < 6 * pairs.length) :
    ∃ bs bs', (ids.mapM fun i => (pairs.map (·.1))[i / 6]?.bind fun p => Boundary.boundary p (i % 6)) = some bs ∧
      (ids.mapM fun i => (pairs.map (·.2))[i / 6]?.bind fun p => Boundary.boundary p (i % 6)) = some bs' ∧
      Spec.MatchPatches dim (Spec.owner pairs ids) (bs.map fun b => sample (Spec.evaluate dim b) (directions b) [r, r]).flatten
        (bs'.map fun b => sample (Spec.evaluate dim b) (directions b) [r, r]).flatten := by
  induction ids with
  | nil => exact ⟨[], [], rfl, rfl, rfl, rfl⟩
  | cons i ids ih =>
    obtain ⟨bs, bs', e, e', hm⟩ := ih fun j hj => hids j (.tail _ hj)
    have hi : i / 6 < pairs.length := by have := hids i (.head _); omega
    have hp := h _ (List.getElem_mem hi)
    obtain ⟨q, q', e1, e2, e3⟩ := face_match hp.1 hp.2.1 hp.2.2 (b := i % 6) (by omega) dim r
    refine ⟨q :: bs, q' :: bs', ?_, ?_, ?_⟩
    · simp only [List.mapM_cons, List.getElem?_map, List.getElem?_eq_getElem hi, Option.map_some, Option.bind_some, e1, Option.bind_eq_bind, Option.pure_def]
      simp only [List.getElem?_map] at e
      rw [e]; rfl
    · simp only [List.mapM_cons, List.getElem?_map, List.getElem?_eq_getElem hi, Option.map_some, Option.bind_some, e2, Option.bind_eq_bind, Option.pure_def]
      simp only [List.getElem?_map] at e'
      rw [e']; rfl
    · unfold Spec.owner
      rw [List.filterMap_cons, List.getElem?_eq_getElem hi]
      exact ⟨_, _, _, _, by rw [List.map_cons, List.flatten_cons], by rw [List.map_cons, List.flatten_cons], e3, hm⟩

theorem faces_count (patches : List (Spline K (List K))) (h : ∀ p ∈ patches, Spec.Volume p) (dim r : ℕ) (ids : List ℕ) (hids : ∀ i ∈ ids, i < 6 * patches.length) :
    ∃ bs, (ids.mapM fun i => patches[i / 6]?.bind fun p => Boundary.boundary p (i % 6)) = some bs ∧
      (bs.map fun b => sample (Spec.evaluate dim b) (directions b) [r, r]).flatten.length = ids.length * r ^ 2 := by
  induction ids with
  | nil => exact ⟨[], rfl, by simp⟩
  | cons i ids ih =>
    obtain ⟨bs, e, hm⟩ := ih fun j hj => hids j (.tail _ hj)
    have hi : i / 6 < patches.length := by have := hids i (.head _); omega
    obtain ⟨q, e1, e2⟩ := volume_face (h _ (List.getElem_mem hi)) (b := i % 6) (by omega) dim r
    refine ⟨q :: bs, ?_, ?_⟩
    · simp only [List.mapM_cons, List.getElem?_eq_getElem hi, Option.bind_some, e1, Option.bind_eq_bind, Option.pure_def]
      rw [e]; rfl
    · rw [List.map_cons, List.flatten_cons, List.length_append, hm, e2, List.length_cons]
      ring

/-- the faces that are shown: those with a negative entry -/
def Spec.outer (t : List Int) : List ℕ := (List.range t.length).filter fun i => decide (t.getD i 0 < 0)

theorem ids_outer (t : List Int) : Multipatch.boundaryPatchIds t (-1) = Spec.outer t := by
  rw [Multipatch.boundaryPatchIds_eq_filter]
  unfold Spec.outer
  simp

theorem outer_lt (t : List Int) {i : ℕ} (h : i ∈ Spec.outer t) : i < t.length := by
  unfold Spec.outer at h
  simpa using (List.mem_filter.1 h).1

/-- C103 for multipatches of volumes with a multipatch as data, patch by patch with the same bounds: if the data have the same outer faces as the multipatch, each vertex shows the value of the data of its
patch at the vertex's parameter. The tables of interfaces may be stored or detected. -/
theorem multipatch_volume_matches_partial (pairs : List (Spline K (List K) × Spline K (List K))) (h : ∀ p ∈ pairs, Spec.Volume p.1 ∧ Spec.Volume p.2 ∧ Spec.SameBounds p.1 p.2) (dim r : ℕ)
    (detect detect' : List (List K) → Option (List Int)) (stored stored' : Option (List Int)) (t t' : List Int)
    (ht : interfaceTable (Spec.evaluate dim) detect stored (pairs.map (·.1)) = some t) (ht' : interfaceTable (Spec.evaluate dim) detect' stored' (pairs.map (·.2)) = some t')
    (hl : t.length = 6 * pairs.length) (hl' : t'.length = 6 * pairs.length) (hsame : ∀ i < 6 * pairs.length, t.getD i 0 < 0 ↔ t'.getD i 0 < 0) :
    ∃ shown values, volumeMultipatch (Spec.evaluate dim) detect r stored (pairs.map (·.1)) = some shown ∧ volumeMultipatch (Spec.evaluate dim) detect' r stored' (pairs.map (·.2)) = some values ∧
      Spec.MatchPatches dim (Spec.owner pairs (Spec.outer t)) shown.vertices values.vertices := by
  have hout : Spec.outer t' = Spec.outer t := by
    unfold Spec.outer
    rw [hl, hl']
    apply List.filter_congr
    intro i hi
    simp only [decide_eq_decide]
    exact (hsame i (List.mem_range.1 hi)).symm
  obtain ⟨bs, bs', e, e', hm⟩ := faces_match pairs h dim r (Spec.outer t) fun i hi => by have := outer_lt t hi; omega
  unfold volumeMultipatch boundaryFaces
  rw [ht, ht']
  simp only [Option.bind_some]
  rw [ids_outer, ids_outer, hout, e, e']
  exact ⟨_, _, rfl, rfl, hm⟩

/-- the number of vertices of a shown multipatch of volumes -/
theorem volume_count (patches : List (Spline K (List K))) (h : ∀ p ∈ patches, Spec.Volume p) (dim r : ℕ) (detect : List (List K) → Option (List Int)) (stored : Option (List Int)) (t : List Int)
    (ht : interfaceTable (Spec.evaluate dim) detect stored patches = some t) (hl : t.length = 6 * patches.length) :
    ∃ shown, volumeMultipatch (Spec.evaluate dim) detect r stored patches = some shown ∧ shown.vertices.length = (Spec.outer t).length * r ^ 2 := by
  obtain ⟨bs, e, hm⟩ := faces_count patches h dim r (Spec.outer t) fun i hi => by have := outer_lt t hi; omega
  unfold volumeMultipatch boundaryFaces
  rw [ht]
  simp only [Option.bind_some]
  rw [ids_outer, e]
  exact ⟨_, rfl, hm⟩

theorem centers_length (dim : ℕ) (patches : List (Spline K (List K))) (h : ∀ p ∈ patches, (directions p).length = 3) :
    (Centers.subPatchCenters (Spec.evaluate dim) patches).length = 6 * patches.length := by
  induction patches with
  | nil => rfl
  | cons p ps ih =>
    unfold Centers.subPatchCenters at ih ⊢
    rw [List.flatMap_cons, List.length_append, ih fun q hq => h q (.tail _ hq), List.length_cons]
    have := h p (.head _)
    simp [Centers.evaluateBoundaryCenters, Centers.boundaryCenters, this, List.range_succ]
    omega

theorem center_in_domain {s : Spline K (List K)} (hs : Spec.Volume s) {u : List K} (hu : u ∈ Centers.boundaryCenters ((directions s).map (·.lower)) ((directions s).map (·.upper))) : InDomain s u := by
  obtain ⟨d0, d1, d2, e⟩ := List.length_eq_three.1 hs.three
  have hle : ∀ d ∈ directions s, d.lower ≤ d.upper := fun d hd => valid_le (hs.valid.dirs d hd)
  unfold InDomain
  rw [e] at hu hle ⊢
  have h0 := hle d0 (by simp)
  have h1 := hle d1 (by simp)
  have h2 := hle d2 (by simp)
  simp [Centers.boundaryCenters, Centers.query, List.range_succ] at hu
  rcases hu with rfl | rfl | rfl | rfl | rfl | rfl <;>
  · refine List.Forall₂.cons ⟨?_, ?_⟩ (List.Forall₂.cons ⟨?_, ?_⟩ (List.Forall₂.cons ⟨?_, ?_⟩ List.Forall₂.nil)) <;> linarith

theorem outer_all {t : List Int} (h : ∀ i < t.length, t.getD i 0 < 0) : (Spec.outer t).length = t.length := by
  unfold Spec.outer
  rw [List.filter_eq_self.2 (by intro i hi; simpa using h i (List.mem_range.1 hi)), List.length_range]

theorem outer_some {t : List Int} {i : ℕ} (hi : i < t.length) (h : ¬ t.getD i 0 < 0) : (Spec.outer t).length < t.length := by
  unfold Spec.outer
  have := List.length_filter_lt_length_iff_exists (l := List.range t.length) (p := fun i => decide (t.getD i 0 < 0))
  simp only [List.length_range] at this
  rw [this]
  exact ⟨i, List.mem_range.2 hi, by simpa using h⟩

section detected
variable (sqrt sqrt' : K → K) (eps tol : K) (order order' : List ℕ)

/-- C103 fails for multipatches of volumes with data that jump between the patches: if two faces of the multipatch coincide, but no two of the data do (their centers differ in value), the data are also
sampled on the faces inside of the multipatch, so that there are more values than vertices. -/
theorem jump_violates (patches data : List (Spline K (List K))) (h : ∀ p ∈ patches, Spec.Volume p) (h' : ∀ p ∈ data, Spec.Volume p) (hn : data.length = patches.length) (dim dim' r : ℕ) (hr : 0 < r)
    (H : Interfaces.Spec.Call sqrt eps order (Centers.subPatchCenters (Spec.evaluate dim) patches) tol 3 dim)
    (H' : Interfaces.Spec.Call sqrt' eps order' (Centers.subPatchCenters (Spec.evaluate dim') data) tol 3 dim')
    (hu : ∀ i j k, Partner (Centers.subPatchCenters (Spec.evaluate dim) patches) tol i j → Partner (Centers.subPatchCenters (Spec.evaluate dim) patches) tol i k → j = k)
    (hi : ∃ i j, Partner (Centers.subPatchCenters (Spec.evaluate dim) patches) tol i j) (hj : ∀ i j, ¬ Partner (Centers.subPatchCenters (Spec.evaluate dim') data) tol i j) :
    ∃ shown values,
      volumeMultipatch (Spec.evaluate dim) (fun pts => Interfaces.interfacesFromBoundaryCenters sqrt eps order pts tol 3 dim) r none patches = some shown ∧
      volumeMultipatch (Spec.evaluate dim') (fun pts => Interfaces.interfacesFromBoundaryCenters sqrt' eps order' pts tol 3 dim') r none data = some values ∧
      shown.vertices.length < values.vertices.length := by
  obtain ⟨t, e1, e2, e3⟩ := Interfaces.interfaces_exact_partial H hu
  obtain ⟨t', e1', e2', e3'⟩ := Interfaces.interfaces_exact_partial H' fun i j k hp => absurd hp (hj i j)
  have hl : t.length = 6 * patches.length := by rw [e2, centers_length dim patches fun p hp => (h p hp).three]
  have hl' : t'.length = 6 * data.length := by rw [e2', centers_length dim' data fun p hp => (h' p hp).three]
  obtain ⟨shown, s1, s2⟩ := volume_count patches h dim r (fun pts => Interfaces.interfacesFromBoundaryCenters sqrt eps order pts tol 3 dim) none t e1 hl
  obtain ⟨values, v1, v2⟩ := volume_count data h' dim' r (fun pts => Interfaces.interfacesFromBoundaryCenters sqrt' eps order' pts tol 3 dim') none t' e1' hl'
  refine ⟨shown, values, s1, v1, ?_⟩
  obtain ⟨i, j, hp⟩ := hi
  have hout := outer_some (t := t) (i := i) (by rw [e2]; exact hp.1) (by rw [((e3 i hp.1).1 j).2 hp]; simp)
  have hout' := outer_all (t := t') fun k hk => by
    rw [(e3' k (by rw [← e2']; exact hk)).2.1.2 (by rintro ⟨m, hm⟩; exact hj k m hm)]
    decide
  rw [s2, v2, hout', hl', hn, ← hl]
  exact Nat.mul_lt_mul_of_pos_right hout (Nat.pow_pos hr)

/-- C103 fails for multipatches of volumes with constant data: all faces of the data coincide, which is rejected as ambiguous connectivity, so that showing raises. -/
theorem constant_violates (data : List (Spline K (List K))) (h : ∀ p ∈ data, Spec.Volume p) (hne : data ≠ []) (dim r : ℕ)
    (H : Interfaces.Spec.Call sqrt eps order (Centers.subPatchCenters (Spec.evaluate dim) data) tol 3 dim) (v : List K)
    (hv : ∀ p ∈ data, ∀ u, InDomain p u → Spec.evaluate dim p u = v) :
    volumeMultipatch (Spec.evaluate dim) (fun pts => Interfaces.interfacesFromBoundaryCenters sqrt eps order pts tol 3 dim) r none data = none := by
  have hlen := centers_length dim data fun p hp => (h p hp).three
  have hall : ∀ c ∈ Centers.subPatchCenters (Spec.evaluate dim) data, c = v := by
    intro c hc
    obtain ⟨p, hp, hc⟩ := List.mem_flatMap.1 hc
    obtain ⟨u, hu, rfl⟩ := List.mem_map.1 hc
    exact hv p hp u (center_in_domain (h p hp) hu)
  have hpos : 0 < data.length := List.length_pos_of_ne_nil hne
  have hpart : ∀ i j, i < 6 * data.length → j < 6 * data.length → i ≠ j → Partner (Centers.subPatchCenters (Spec.evaluate dim) data) tol i j := by
    intro i j hi hj hij
    rw [← hlen] at hi hj
    rw [Interfaces.partner_iff H hi]
    refine ⟨hj, hij, ?_⟩
    rw [Interfaces.squaredDistance_eq]
    have hti : ∀ k, k < (Centers.subPatchCenters (Spec.evaluate dim) data).length → (Centers.subPatchCenters (Spec.evaluate dim) data).getD k [] = v := by
      intro k hk
      rw [List.getD_eq_getElem _ _ hk]
      exact hall _ (List.getElem_mem hk)
    rw [hti i hi, hti j hj]
    have := H.tol_pos
    simp only [sub_self, ne_eq, OfNat.ofNat_ne_zero, not_false_eq_true, zero_pow, List.map_const', List.sum_replicate, smul_zero]
    positivity
  have hnone := Interfaces.interfaces_triple_rejected H (i := 0) (j := 1) (k := 2) (fun i j k h1 h2 h3 => by
    have a := h1.1
    have b := h2.2.1
    rw [hlen] at a b
    exact hpart i k a b h3) (hpart 0 1 (by omega) (by omega) (by decide)) (hpart 0 2 (by omega) (by omega) (by decide)) (by decide)
  unfold volumeMultipatch interfaceTable
  simp only
  rw [hnone]
  rfl

end detected

/-- a trilinear volume with given values at the corners of the unit cube -/
def corners (f : ℚ → ℚ → ℚ → List ℚ) : Spline ℚ (List ℚ) := ⟨[1, 1, 1], none, none, [f 0 0 0, f 1 0 0, f 0 1 0, f 1 1 0, f 0 0 1, f 1 0 1, f 0 1 1, f 1 1 1]⟩

/-- two boxes with a common face -/
def boxes : List (Spline ℚ (List ℚ)) := [corners fun x y z => [x, y, 2 * z], corners fun x y z => [x + 1, y, 2 * z]]

/-- data on them with a jump between them -/
def jump : List (Spline ℚ (List ℚ)) := [corners fun x y z => [x + 3 * y + 9 * z], corners fun x y z => [x + 3 * y + 9 * z + 100]]

theorem corners_volume (f : ℚ → ℚ → ℚ → List ℚ) : Spec.Volume (corners f) := by
  refine ⟨⟨fun kvs h => (by cases h), fun d hd => ?_, rfl, fun ws h => (by cases h)⟩, rfl, fun b hb d hd => ?_⟩
  · simp only [directions, corners, List.map_cons, List.map_nil, List.mem_cons, List.not_mem_nil, or_false, or_self] at hd
    subst hd
    intro kv h
    cases h
  · have hd' : d = ⟨1, none⟩ := by
      have := List.mem_of_getElem? hd
      simpa [directions, corners] using this
    subst hd'
    intro kv h
    cases h

theorem boxes_centers : Centers.subPatchCenters (Spec.evaluate 3) boxes =
    [[0, 1/2, 1], [1, 1/2, 1], [1/2, 0, 1], [1/2, 1, 1], [1/2, 1/2, 0], [1/2, 1/2, 2], [1, 1/2, 1], [2, 1/2, 1], [3/2, 0, 1], [3/2, 1, 1], [3/2, 1/2, 0], [3/2, 1/2, 2]] := by decide +kernel

theorem jump_centers : Centers.subPatchCenters (Spec.evaluate 1) jump = [[6], [7], [5], [8], [2], [11], [106], [107], [105], [108], [102], [111]] := by decide +kernel

-- the hypotheses of `jump_violates`
example : ∃ shown values,
    volumeMultipatch (Spec.evaluate 3) (fun pts => Interfaces.interfacesFromBoundaryCenters (fun _ => 3) (1/100) [4, 10, 0, 1, 2, 3, 6, 7, 8, 9, 5, 11] pts (1/10) 3 3) 20 none boxes = some shown ∧
    volumeMultipatch (Spec.evaluate 1) (fun pts => Interfaces.interfacesFromBoundaryCenters (fun _ => 109) (1/100) [4, 2, 0, 1, 3, 5, 10, 8, 6, 7, 9, 11] pts (1/10) 3 1) 20 none jump = some values ∧
    shown.vertices.length < values.vertices.length := by
  refine jump_violates (fun _ => 3) (fun _ => 109) (1/100) (1/10) _ _ boxes jump ?_ ?_ rfl 3 1 20 (by decide) ?_ ?_ ?_ ?_ ?_
  · intro p hp
    simp only [boxes, List.mem_cons, List.not_mem_nil, or_false] at hp
    rcases hp with rfl | rfl <;> exact corners_volume _
  · intro p hp
    simp only [jump, List.mem_cons, List.not_mem_nil, or_false] at hp
    rcases hp with rfl | rfl <;> exact corners_volume _
  · rw [boxes_centers]
    exact ⟨by decide, by decide, by decide, by decide, by decide, by decide +kernel, by decide +kernel, by decide +kernel, ⟨by decide, by decide +kernel⟩⟩
  · rw [jump_centers]
    exact ⟨by decide, by decide, by decide, by decide, by decide, by decide +kernel, by decide +kernel, by decide +kernel, ⟨by decide, by decide +kernel⟩⟩
  · rw [boxes_centers]
    rintro i j k ⟨a1, a2, a3, a4⟩ ⟨b1, b2, b3, b4⟩
    have : ∀ i j k : Fin 12, (i.1 ≠ j.1 ∧ distSq (([[0, 1/2, 1], [1, 1/2, 1], [1/2, 0, 1], [1/2, 1, 1], [1/2, 1/2, 0], [1/2, 1/2, 2], [1, 1/2, 1], [2, 1/2, 1], [3/2, 0, 1], [3/2, 1, 1], [3/2, 1/2, 0], [3/2, 1/2, 2]] : List (List ℚ)).getD i.1 []) (([[0, 1/2, 1], [1, 1/2, 1], [1/2, 0, 1], [1/2, 1, 1], [1/2, 1/2, 0], [1/2, 1/2, 2], [1, 1/2, 1], [2, 1/2, 1], [3/2, 0, 1], [3/2, 1, 1], [3/2, 1/2, 0], [3/2, 1/2, 2]] : List (List ℚ)).getD j.1 []) < (1/10) * (1/10) ∧ i.1 ≠ k.1 ∧
        distSq (([[0, 1/2, 1], [1, 1/2, 1], [1/2, 0, 1], [1/2, 1, 1], [1/2, 1/2, 0], [1/2, 1/2, 2], [1, 1/2, 1], [2, 1/2, 1], [3/2, 0, 1], [3/2, 1, 1], [3/2, 1/2, 0], [3/2, 1/2, 2]] : List (List ℚ)).getD i.1 []) (([[0, 1/2, 1], [1, 1/2, 1], [1/2, 0, 1], [1/2, 1, 1], [1/2, 1/2, 0], [1/2, 1/2, 2], [1, 1/2, 1], [2, 1/2, 1], [3/2, 0, 1], [3/2, 1, 1], [3/2, 1/2, 0], [3/2, 1/2, 2]] : List (List ℚ)).getD k.1 []) < (1/10) * (1/10)) → j.1 = k.1 := by decide +kernel
    exact this ⟨i, a1⟩ ⟨j, a2⟩ ⟨k, b2⟩ ⟨a3, a4, b3, b4⟩
  · rw [boxes_centers]
    exact ⟨1, 6, by decide, by decide, by decide, by decide +kernel⟩
  · rw [jump_centers]
    rintro i j ⟨a1, a2, a3, a4⟩
    have : ∀ i j : Fin 12, ¬ (i.1 ≠ j.1 ∧ distSq (([[6], [7], [5], [8], [2], [11], [106], [107], [105], [108], [102], [111]] : List (List ℚ)).getD i.1 [])
        (([[6], [7], [5], [8], [2], [11], [106], [107], [105], [108], [102], [111]] : List (List ℚ)).getD j.1 []) < (1/10) * (1/10)) := by decide +kernel
    exact this ⟨i, a1⟩ ⟨j, a2⟩ ⟨a3, a4⟩

-- the hypotheses of `multipatch_volume_matches_partial`, with stored tables
example : ∃ shown values, volumeMultipatch (Spec.evaluate 3) (fun _ => none) 20 (some [-1, 6, -2, -1, -1, -1, 1, -1, -1, -1, -3, -1]) boxes = some shown ∧
    volumeMultipatch (Spec.evaluate 3) (fun _ => none) 20 (some [-1, 6, -1, -1, -1, -1, 1, -1, -1, -1, -1, -1]) jump = some values ∧
    Spec.MatchPatches 3 (Spec.owner (boxes.zip jump) [0, 2, 3, 4, 5, 7, 8, 9, 10, 11]) shown.vertices values.vertices :=
  multipatch_volume_matches_partial (boxes.zip jump) (by
    intro p hp
    simp only [boxes, jump, List.zip_cons_cons, List.zip_nil_right, List.mem_cons, List.not_mem_nil, or_false] at hp
    rcases hp with rfl | rfl <;> exact ⟨by simpa using corners_volume _, by simpa using corners_volume _, rfl, rfl⟩) 3 20 (fun _ => none) (fun _ => none) _ _ [-1, 6, -2, -1, -1, -1, 1, -1, -1, -1, -3, -1]
    [-1, 6, -1, -1, -1, -1, 1, -1, -1, -1, -1, -1] rfl rfl rfl rfl (by decide)

-- the hypotheses of `constant_violates`
example : volumeMultipatch (Spec.evaluate 1) (fun pts => Interfaces.interfacesFromBoundaryCenters (fun _ => 0) (1/100) [0, 1, 2, 3, 4, 5] pts (1/10) 3 1) 20 none
    [corners fun _ _ _ => [5]] = none := by
  refine constant_violates (fun _ => 0) (1/100) (1/10) _ [corners fun _ _ _ => [5]] (by simpa using corners_volume _) (by simp) 1 20 ?_ [5] ?_
  · have : Centers.subPatchCenters (Spec.evaluate 1) [corners fun _ _ _ => [5]] = [[5], [5], [5], [5], [5], [5]] := by decide +kernel
    rw [this]
    exact ⟨by decide, by decide, by decide, by decide, by decide, by decide +kernel, by decide +kernel, by decide +kernel, ⟨by decide, by decide +kernel⟩⟩
  · intro p hp u hu
    rw [List.mem_singleton.1 hp] at hu ⊢
    obtain ⟨x, y, z, rfl⟩ := List.length_eq_three.1 (List.Forall₂.length_eq hu).symm
    simp [Spec.evaluate, point, corners, value, netSize, directions, basisValues, Direction.basis, Direction.size, tensorEval, basisProduct, digits, List.range_succ, bernstein]
    ring

end Splinepy.FieldData
