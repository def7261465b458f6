import Verif.Props.MicroInterfaces
import Verif.Props.WatertightVoid

/-!
C120, continued: the interfaces of microstructures of `Chi` tiles cannot be determined.
-/
namespace Splinepy.MicroInterfaces
open Splinepy.Spec Splinepy.Interfaces
open Splinepy.Index (Spline)
open Splinepy.Centers (subPatchCenters)
open Splinepy.MicroGeometry (Settings Spec.Cube Spec.image Spec.place Spec.elements Spec.Placed)
open Splinepy.Watertight (Spec.centre Spec.IsWatertight)
open Splinepy.Tiles (createChi Tile Patch)
open Splinepy.Tiles.Spec (bezier)

/-- the first four curves of a `Chi` tile start in the middle of the cell -/
theorem chi_starts {c : Option String} {p : Option (Tiles.Mat ℝ)} {T : Tile ℝ} (h : createChi c p none = some T) :
    ∀ a < 3, ∃ P : Patch ℝ, T.splines[a]? = some P ∧ P.degrees = [2] ∧ ∀ k < 2, (P.cps.getD 0 []).getD k 0 = 1 / 2 := by
  simp only [createChi, Option.ite_none_right_eq_some, Option.some.injEq] at h
  obtain ⟨-, rfl⟩ := h
  intro a ha
  rcases (by omega : a = 0 ∨ a = 1 ∨ a = 2) with rfl | rfl | rfl
  all_goals
    refine ⟨_, rfl, rfl, fun k hk => ?_⟩
    rcases (by omega : k = 0 ∨ k = 1) with rfl | rfl
    all_goals simp [Tiles.shift]

theorem bezier_start (P : Patch ℝ) (hP : P.degrees = [2]) (k : ℕ) : point (bezier P) [0] k = (P.cps.getD 0 []).getD k 0 := by
  rw [BezierFace.point_bezier, hP, BezierFace.bez_one]
  simp [Finset.sum_range_succ, bernstein]

/-- C120 is false for `Chi`: whenever a microstructure of `Chi` tiles is created, with any angles, four curves start in the middle of each cell. The detection of interfaces raises, for
every tolerance for which closeness of the end points is transitive. -/
theorem chi_interfaces_violates {x : Settings ℝ} {dim : ℕ} {breaks : List (List ℝ)} {face : Option Char} {patches : List (Spline ℝ (List ℝ))}
    (hx : x.createTile = fun p c => (MicroTile.createTile createChi face p none c).map Prod.fst) (h : Spec.IsWatertight x 2 1 dim breaks face (some patches)) (hne : patches ≠ [])
    (hb : ∀ c ∈ patches, c.knotVectors = none ∧ c.degrees.length = 1) {sqrt : ℝ → ℝ} {eps tol : ℝ} {order : List ℕ}
    (H : Interfaces.Spec.Call sqrt eps order (subPatchCenters (Spec.image dim) patches) tol 1 dim)
    (htrans : ∀ i j k, Partner (subPatchCenters (Spec.image dim) patches) tol i j → Partner (subPatchCenters (Spec.image dim) patches) tol j k → i ≠ k →
      Partner (subPatchCenters (Spec.image dim) patches) tol i k) :
    interfacesFromBoundaryCenters sqrt eps order (subPatchCenters (Spec.image dim) patches) tol 1 dim = none := by
  obtain ⟨closures, tile, placed, -, h2, h3, -⟩ := h
  rw [Option.some_inj] at h2
  have hpos : 0 < (Spec.elements breaks).prod := by
    rcases Nat.eq_zero_or_pos (Spec.elements breaks).prod with h0 | h0
    · rw [h0] at h2; exact absurd h2 hne
    · exact h0
  obtain ⟨ht, hpl⟩ := h3 0 hpos
  rw [show x.createTile = Watertight.usesClass createChi face from hx, Watertight.usesClass_eq, Option.map_eq_some_iff] at ht
  obtain ⟨T, hT, hsp⟩ := ht
  have center : ∀ a < 3, ∃ c, (placed 0)[a]? = some c ∧ ∀ k, point c [0] k = point x.deformation (Spec.place breaks (digits (Spec.elements breaks) 0) [1 / 2, 1 / 2]) k := by
    intro a ha
    obtain ⟨P, hP, hdeg, hcp⟩ := chi_starts hT a ha
    have hta : (tile 0)[a]? = some (bezier P) := by rw [← hsp, List.getElem?_map, hP]; rfl
    obtain ⟨hlt, hta'⟩ := List.getElem?_eq_some_iff.1 hta
    have hlt' : a < (placed 0).length := hpl.length_eq ▸ hlt
    have hpa := List.forall₂_iff_get.1 hpl |>.2 a hlt hlt'
    simp only [List.get_eq_getElem] at hpa
    rw [hta'] at hpa
    refine ⟨_, List.getElem?_eq_getElem hlt', fun k => ?_⟩
    have hcube : Spec.Cube (bezier P).degrees.length ([0] : List ℝ) := by
      have : (bezier P).degrees = [2] := hdeg
      rw [this]
      exact ⟨rfl, by simp⟩
    rw [(hpa [0] hcube).2 k]
    congr 2
    simp only [MicroGeometry.Spec.image, show List.range 2 = [0, 1] from rfl, List.map_cons, List.map_nil, bezier_start P hdeg, hcp 0 (by omega), hcp 1 (by omega)]
  have entry : ∀ a < 3, (subPatchCenters (Spec.image dim) patches)[2 * a]? =
      some ((List.range dim).map fun k => point x.deformation (Spec.place breaks (digits (Spec.elements breaks) 0) [1 / 2, 1 / 2]) k) := by
    intro a ha
    obtain ⟨c, hc, hpt⟩ := center a ha
    have hs := start_get placed (Spec.elements breaks).prod 0 a hpos c hc
    rw [← h2, show Spec.start placed 0 + a = a by simp [Spec.start]] at hs
    have g := bezier_centers_get dim 1 patches hb a c hs 0 (by omega) false
    rw [show Spec.faceNumber 1 a 0 false = 2 * a by simp [Spec.faceNumber]] at g
    rw [g, show (Spec.centre 1 0 false : List ℝ) = [0] from rfl]
    simp only [MicroGeometry.Spec.image, Option.some_inj]
    exact List.map_congr_left fun k _ => hpt k
  have partner : ∀ a, 0 < a → a < 3 → Partner (subPatchCenters (Spec.image dim) patches) tol (2 * 0) (2 * a) := by
    intro a h0 ha
    have e0 := entry 0 (by omega)
    have ea := entry a ha
    refine ⟨(List.getElem?_eq_some_iff.1 e0).1, (List.getElem?_eq_some_iff.1 ea).1, by omega, ?_⟩
    rw [List.getD_eq_getElem?_getD, e0, List.getD_eq_getElem?_getD, ea, Option.getD_some, distSq_self]
    exact mul_pos H.tol_pos H.tol_pos
  exact interfaces_triple_rejected H htrans (partner 1 (by omega) (by omega)) (partner 2 (by omega) (by omega)) (by omega)

/-! ### Concrete case -/

/-- the unit square -/
noncomputable def square : Patch ℝ := ⟨[1, 1], [[0, 0], [1, 0], [0, 1], [1, 1]]⟩

/-- one `Chi` tile with the angle `0` in the unit square -/
noncomputable def oneChi : Settings ℝ where
  deformation := bezier square
  tiling := [1, 1]
  parametrization := some fun _ => [[0]]
  evaluationPoints := [[1 / 2, 1 / 2]]
  createTile := fun p c => (MicroTile.createTile createChi none p none c).map Prod.fst

noncomputable def oneChiPatches : List (Spline ℝ (List ℝ)) := (Tiles.chiTile [[0]]).map bezier

theorem oneChi_created : createChi none (some [[0]]) none = some ⟨Tiles.chiTile [[0]], none⟩ := by
  have h := Real.pi_pos
  simp [createChi, Tiles.checkParams, Tiles.checkDerivatives, Tiles.assemble, h]

theorem oneChi_tidy : Watertight.Tidy 2 1 (Tiles.chiTile [[0]]) :=
  Watertight.tidy_of_shape (sh := Tiles.Spec.shape (Tiles.chi (0 : ℚ) 0 0 0)) (by decide +kernel) rfl (Tiles.chi_in_unit_square none [[0]] none _ oneChi_created)

theorem square_point (x y : ℝ) (k : ℕ) : point (bezier square) [x, y] k = [x, y].getD k 0 := by
  rw [BezierFace.point_bezier, square, BezierFace.bez_two]
  rcases k with _ | _ | k
  all_goals simp [Finset.sum_range_succ, bernstein]
  all_goals ring

theorem oneChi_placed {P : Patch ℝ} (hP : P ∈ Tiles.chiTile [[0]]) : Spec.Placed oneChi.deformation 2 [[0, 1], [0, 1]] 0 (bezier P) (bezier P) := by
  intro u hu
  have hin := (Watertight.tidy_tilePatch oneChi_tidy hP).inside u hu
  obtain ⟨x, y, hxy⟩ : ∃ x y, Spec.image 2 (bezier P) u = [x, y] := ⟨_, _, rfl⟩
  have hpl : Spec.place [[0, 1], [0, 1]] (digits (Spec.elements [[(0 : ℝ), 1], [0, 1]]) 0) [x, y] = [x, y] := by
    simp [MicroGeometry.Spec.place, MicroGeometry.Spec.elements, digits]
  rw [hxy] at hin ⊢
  rw [hpl]
  refine ⟨MicroGeometry.inDomain_bezier rfl hin, fun k => ?_⟩
  rw [show oneChi.deformation = bezier square from rfl, square_point, ← hxy]
  rcases k with _ | _ | k
  · rfl
  · rfl
  · rw [BezierFace.point_bezier, List.getD_eq_default _ _ (by simp [MicroGeometry.Spec.image])]
    rw [BezierFace.bez_congr (c' := fun _ => 0), Watertight.bez_const]
    · exact hu.1
    · intro l hl
      obtain ⟨-, h2, h3⟩ := oneChi_tidy P hP
      rw [← h2] at hl
      rw [List.getD_eq_getElem P.cps [] hl]
      exact List.getD_eq_default _ _ (by rw [(h3 _ (List.getElem_mem hl)).1]; omega)

theorem oneChi_watertight : Spec.IsWatertight oneChi 2 1 2 [[0, 1], [0, 1]] none (some oneChiPatches) := by
  refine ⟨[none], fun _ => oneChiPatches, fun _ => oneChiPatches, rfl, ?_, ?_, ?_⟩
  · simp [MicroGeometry.Spec.elements]
  · intro e he
    obtain rfl : e = 0 := by simpa [MicroGeometry.Spec.elements] using he
    refine ⟨?_, ?_⟩
    · show Watertight.usesClass createChi none (some [[0]]) none = _
      rw [Watertight.usesClass_eq]
      simp only [Option.map_none, oneChi_created, Option.map_some]
      rfl
    · refine List.forall₂_same.2 fun t ht => ?_
      obtain ⟨P, hP, rfl⟩ := List.mem_map.1 ht
      exact oneChi_placed hP
  · intro e e' axis i he he' hi hd
    obtain rfl : e = 0 := by simpa [MicroGeometry.Spec.elements] using he
    obtain rfl : e' = 0 := by simpa [MicroGeometry.Spec.elements] using he'
    exact absurd rfl (digits_ne hi hd)

theorem bezier_end (P : Patch ℝ) (hP : P.degrees = [2]) (k : ℕ) : point (bezier P) [1] k = (P.cps.getD 2 []).getD k 0 := by
  rw [BezierFace.point_bezier, hP, BezierFace.bez_one]
  simp [Finset.sum_range_succ, bernstein]

theorem oneChi_centers : subPatchCenters (Spec.image 2) oneChiPatches = [[1 / 2, 1 / 2], [0, 0], [1 / 2, 1 / 2], [1, 0], [1 / 2, 1 / 2], [1, 1], [1 / 2, 1 / 2], [0, 1]] := by
  have hq : ∀ P : Patch ℝ, P.degrees = [2] → Centers.evaluateBoundaryCenters (Spec.image 2) (bezier P) =
      [[(P.cps.getD 0 []).getD 0 0, (P.cps.getD 0 []).getD 1 0], [(P.cps.getD 2 []).getD 0 0, (P.cps.getD 2 []).getD 1 0]] := by
    intro P hP
    have : Centers.boundaryCenters ((directions (bezier P)).map (·.lower)) ((directions (bezier P)).map (·.upper)) = [[(0 : ℝ)], [1]] := by
      simp only [bezier, directions, hP]
      rfl
    rw [Centers.evaluateBoundaryCenters, this]
    simp only [List.map_cons, List.map_nil, MicroGeometry.Spec.image, show List.range 2 = [0, 1] from rfl, bezier_start P hP, bezier_end P hP]
  unfold subPatchCenters oneChiPatches Tiles.chiTile Tiles.chi
  simp only [List.map_cons, List.map_nil, List.flatMap_cons, List.flatMap_nil, hq, List.append_nil, List.cons_append, List.nil_append]
  norm_num [Tiles.shift]

theorem exists_order (n : ℕ) (metric : ℕ → ℝ) : ∃ order, Interfaces.Spec.SortedBy n metric order := by
  refine ⟨(List.range n).mergeSort fun a b => decide (metric a ≤ metric b), List.mergeSort_perm _ _, ?_⟩
  refine (List.pairwise_mergeSort (fun a b c h1 h2 => ?_) (fun a b => ?_) _).imp fun h => of_decide_eq_true h
  · simp only [decide_eq_true_eq] at *
    exact h1.trans h2
  · simp only [Bool.or_eq_true, decide_eq_true_eq]
    exact le_total _ _

-- the hypotheses of `chi_interfaces_violates`: one tile, which meets itself nowhere
example : ∃ order, interfacesFromBoundaryCenters Real.sqrt (1 / 100) order (subPatchCenters (Spec.image 2) oneChiPatches) (1 / 10) 1 2 = none := by
  obtain ⟨order, horder⟩ := exists_order (subPatchCenters (Spec.image 2) oneChiPatches).length
    (fun i => scalarMetric (normedMetric Real.sqrt (1 / 100) (extents 2 (subPatchCenters (Spec.image 2) oneChiPatches))) ((subPatchCenters (Spec.image 2) oneChiPatches).getD i []))
  refine ⟨order, chi_interfaces_violates (x := oneChi) rfl oneChi_watertight (by simp [oneChiPatches, Tiles.chiTile, Tiles.chi]) ?_
    ⟨by norm_num, by norm_num, by rw [oneChi_centers]; decide, by rw [oneChi_centers]; rfl, by rw [oneChi_centers]; simp, by norm_num, by norm_num, Real.mul_self_sqrt ?_, horder⟩ ?_⟩
  · intro c hc
    obtain ⟨P, hP, rfl⟩ := List.mem_map.1 hc
    exact ⟨rfl, (oneChi_tidy P hP).1⟩
  · refine List.sum_nonneg fun v hv => ?_
    obtain ⟨m, -, rfl⟩ := List.mem_map.1 hv
    exact mul_self_nonneg m
  · rw [oneChi_centers]
    have key : ∀ p ∈ ([[1 / 2, 1 / 2], [0, 0], [1 / 2, 1 / 2], [1, 0], [1 / 2, 1 / 2], [1, 1], [1 / 2, 1 / 2], [0, 1]] : List (List ℝ)),
        ∀ q ∈ ([[1 / 2, 1 / 2], [0, 0], [1 / 2, 1 / 2], [1, 0], [1 / 2, 1 / 2], [1, 1], [1 / 2, 1 / 2], [0, 1]] : List (List ℝ)), distSq p q < 1 / 10 * (1 / 10) → p = q := by
      simp only [List.mem_cons, List.not_mem_nil, or_false]
      rintro p (rfl | rfl | rfl | rfl | rfl | rfl | rfl | rfl) q (rfl | rfl | rfl | rfl | rfl | rfl | rfl | rfl) <;> norm_num [distSq]
    rintro i j k ⟨hi, hj, hij, h1⟩ ⟨-, hk, hjk, h2⟩ hik
    refine ⟨hi, hk, hik, ?_⟩
    rw [List.getD_eq_getElem _ [] hi, List.getD_eq_getElem _ [] hj] at h1
    rw [List.getD_eq_getElem _ [] hj, List.getD_eq_getElem _ [] hk] at h2
    have e1 := key _ (List.getElem_mem hi) _ (List.getElem_mem hj) h1
    have e2 := key _ (List.getElem_mem hj) _ (List.getElem_mem hk) h2
    rw [List.getD_eq_getElem _ [] hi, List.getD_eq_getElem _ [] hk, e1, e2, distSq_self]
    norm_num

end Splinepy.MicroInterfaces
