import Verif.Model.Centers
import Verif.Props.Interfaces
import Verif.Props.WatertightTiles

/-!
C120: the interface detection connects the neighbouring cells of a microstructure. It combines the centers of faces (`Centers`), the detection of interfaces (C11) and the common faces of neighbouring
cells (C116).
-/
set_option linter.unusedSectionVars false
namespace Splinepy.MicroInterfaces
open Splinepy.Spec Splinepy.Interfaces
open Splinepy.Index (Spline)
open Splinepy.Centers (subPatchCenters evaluateBoundaryCenters boundaryCenters query)
open Splinepy.MicroGeometry (Settings Spec.Cube Spec.image Spec.place Spec.elements Spec.Placed)
open Splinepy.Watertight (Spec.face Spec.centre Spec.OnSide Spec.IsWatertight)

variable {K : Type} [Field K] [LinearOrder K] [IsStrictOrderedRing K]

/-! ### Specification -/

/-- Number of a face of a multipatch, as documented for `Multipatch.interfaces`: local number plus number of faces of a patch times number of the patch. The first and the last face of
direction `d` have the local numbers `2 d` and `2 d + 1`. -/
def Spec.faceNumber (m p d : ℕ) (last : Bool) : ℕ := 2 * d + (if last then 1 else 0) + 2 * m * p

/-- number of the first patch of element `e` -/
def Spec.start (placed : ℕ → List (Spline K (List K))) (e : ℕ) : ℕ := ((List.range e).flatMap placed).length

/-- The interfaces connect every face of a patch of element `e` in the side `axis = v` of its cell with the face of a patch of element `e'` that has the same points, and back. -/
def Spec.Linked (n m dim : ℕ) (tile placed : ℕ → List (Spline K (List K))) (e e' axis : ℕ) (v v' : K) (interfaces : List Int) : Prop :=
  ∀ (a : ℕ) (t c : Spline K (List K)), (tile e)[a]? = some t → (placed e)[a]? = some c → ∀ d < m, ∀ last, Spec.OnSide n m t d last axis v →
    ∃ (a' : ℕ) (t' c' : Spline K (List K)), (tile e')[a']? = some t' ∧ (placed e')[a']? = some c' ∧ ∃ d' < m, ∃ last', Spec.OnSide n m t' d' last' axis v' ∧
      Spec.face m dim c d last = Spec.face m dim c' d' last' ∧
      interfaces.getD (Spec.faceNumber m (Spec.start placed e + a) d last) 0 = Int.ofNat (Spec.faceNumber m (Spec.start placed e' + a') d' last') ∧
      interfaces.getD (Spec.faceNumber m (Spec.start placed e' + a') d' last') 0 = Int.ofNat (Spec.faceNumber m (Spec.start placed e + a) d last)

/-- The patches are those of a microstructure (see C112), and the interfaces connect neighbouring elements. -/
def Spec.IsConnected (x : Settings K) (n m dim : ℕ) (breaks : List (List K)) (closing : Option Char) (patches : List (Spline K (List K))) (interfaces : List Int) : Prop :=
  ∃ (closures : List (Option MicroCreate.Side)) (tile placed : ℕ → List (Spline K (List K))),
    MicroCreate.closures (Spec.elements breaks) closing = some closures ∧
    patches = (List.range (Spec.elements breaks).prod).flatMap placed ∧
    (∀ e < (Spec.elements breaks).prod,
      x.createTile (x.parametrization.map fun f => f (x.evaluationPoints.map (Spec.place breaks (digits (Spec.elements breaks) e)))) (closures.getD e none) = some (tile e) ∧
      List.Forall₂ (Spec.Placed x.deformation n breaks e) (tile e) (placed e)) ∧
    ∀ e e' axis i, e < (Spec.elements breaks).prod → e' < (Spec.elements breaks).prod → (digits (Spec.elements breaks) e)[axis]? = some i →
      digits (Spec.elements breaks) e' = (digits (Spec.elements breaks) e).set axis (i + 1) →
      Spec.Linked n m dim tile placed e e' axis 1 0 interfaces ∧ Spec.Linked n m dim tile placed e' e axis 0 1 interfaces

/-! ### Centers -/

theorem boundaryCenters_length (lower upper : List K) : (boundaryCenters lower upper).length = 2 * lower.length := by
  simp [boundaryCenters, List.length_flatMap, mul_comm]

theorem pairs_get {α : Type} (f g : ℕ → α) (n d : ℕ) (hd : d < n) (last : Bool) :
    ((List.range n).flatMap fun i => [f i, g i])[2 * d + (if last then 1 else 0)]? = some (if last then g d else f d) := by
  induction n with
  | zero => omega
  | succ n ih =>
    have hl : ((List.range n).flatMap fun i => [f i, g i]).length = 2 * n := by simp [List.length_flatMap, mul_comm]
    rw [List.range_succ, List.flatMap_append]
    by_cases h : d < n
    · rw [List.getElem?_append_left (by rw [hl]; split <;> omega)]
      exact ih h
    · obtain rfl : d = n := by omega
      rw [List.getElem?_append_right (by rw [hl]; omega), hl]
      cases last <;> simp

theorem blocks_get {α β : Type} (f : α → List β) (k : ℕ) (l : List α) (hf : ∀ a ∈ l, (f a).length = k) (p : ℕ) (a : α) (hp : l[p]? = some a) (j : ℕ) (hj : j < k) :
    (l.flatMap f)[j + k * p]? = (f a)[j]? := by
  induction l generalizing p with
  | nil => simp at hp
  | cons b l ih =>
    rw [List.flatMap_cons]
    cases p with
    | zero =>
      rw [List.getElem?_cons_zero, Option.some_inj] at hp
      subst hp
      rw [Nat.mul_zero, Nat.add_zero, List.getElem?_append_left (by rw [hf _ (.head _)]; exact hj)]
    | succ p =>
      rw [List.getElem?_cons_succ] at hp
      have hb := hf b (.head _)
      rw [List.getElem?_append_right (by rw [hb, Nat.mul_succ]; omega), hb, Nat.mul_succ, show j + (k * p + k) - k = j + k * p by omega]
      exact ih (fun c hc => hf c (.tail _ hc)) p hp

/-- C120: the center with the number of a face is the point of the spline in the middle of the face. -/
theorem centers_get (dim m : ℕ) (patches : List (Spline K (List K))) (h : ∀ c ∈ patches, (directions c).length = m) (p : ℕ) (c : Spline K (List K)) (hp : patches[p]? = some c) (d : ℕ) (hd : d < m)
    (last : Bool) :
    (subPatchCenters (Spec.image dim) patches)[Spec.faceNumber m p d last]? =
      some (Spec.image dim c (query ((directions c).map (·.lower)) ((directions c).map (·.upper)) d last)) := by
  have hlen : ∀ c ∈ patches, (evaluateBoundaryCenters (Spec.image dim) c).length = 2 * m := by
    intro c hc
    rw [evaluateBoundaryCenters, List.length_map, boundaryCenters_length, List.length_map, h c hc]
  unfold subPatchCenters Spec.faceNumber
  have hc : c ∈ patches := List.mem_of_getElem? hp
  rw [blocks_get _ (2 * m) patches hlen p c hp _ (by split <;> omega)]
  unfold evaluateBoundaryCenters boundaryCenters
  rw [List.getElem?_map, pairs_get _ _ _ d (by rw [List.length_map, h c hc]; exact hd)]
  cases last <;> rfl

/-- The parameters are those of the middle of a face: the parameter `d` has its first or last value, all others are in the middle of their range. -/
def Spec.MiddleOfFace (c : Spline K (List K)) (d : ℕ) (last : Bool) (u : List K) : Prop :=
  u.length = (directions c).length ∧ ∀ (j : ℕ) (dir : Direction K), (directions c)[j]? = some dir →
    u[j]? = some (if j = d then (if last then dir.upper else dir.lower) else (dir.lower + dir.upper) / 2)

/-- C120: the center with the number of a face is the point of the spline in the middle of the face, for B-splines with any knot vectors. -/
theorem center_of_face (dim m : ℕ) (patches : List (Spline K (List K))) (h : ∀ c ∈ patches, (directions c).length = m) (p : ℕ) (c : Spline K (List K)) (hp : patches[p]? = some c) (d : ℕ) (hd : d < m)
    (last : Bool) : ∃ u, Spec.MiddleOfFace c d last u ∧ (subPatchCenters (Spec.image dim) patches)[Spec.faceNumber m p d last]? = some (Spec.image dim c u) := by
  refine ⟨_, ⟨by simp [query], fun j dir hj => ?_⟩, centers_get dim m patches h p c hp d hd last⟩
  have hlt := (List.getElem?_eq_some_iff.1 hj).1
  unfold query
  rw [List.getElem?_map, List.length_map, List.getElem?_range hlt]
  simp only [Option.map_some, Option.some_inj, List.getD_eq_getElem?_getD, List.getElem?_map, hj, Option.getD_some]
  by_cases e : j = d
  · rw [if_pos e.symm, if_pos e]
  · rw [if_neg (Ne.symm e), if_neg e]
    ring

theorem query_bezier (m d : ℕ) (hd : d < m) (last : Bool) : query (List.replicate m (0 : K)) (List.replicate m 1) d last = Spec.centre m d last := by
  unfold query Watertight.Spec.centre
  refine List.ext_getElem ?_ fun j h1 h2 => ?_
  · rw [List.length_map, List.length_range, List.length_replicate, List.length_insertIdx, List.length_replicate, if_pos (by omega)]
    omega
  · have hj : j < m := by simpa using h1
    rw [List.getElem_map, List.getElem_range, List.getElem_insertIdx]
    have e0 : (List.replicate m (0 : K)).getD j 0 = 0 := by simp
    have e1 : (List.replicate m (1 : K)).getD j 0 = 1 := by simp [List.getD_eq_getElem?_getD, hj]
    rw [e0, e1]
    by_cases hjd : j < d
    · rw [dif_pos hjd, if_neg (by omega)]
      simp
    · rw [dif_neg hjd]
      by_cases he : j = d
      · rw [dif_pos he, if_pos he.symm]
      · rw [dif_neg he, if_neg (by omega)]
        simp

theorem bezier_centers_get (dim m : ℕ) (patches : List (Spline K (List K))) (h : ∀ c ∈ patches, c.knotVectors = none ∧ c.degrees.length = m) (p : ℕ) (c : Spline K (List K)) (hp : patches[p]? = some c)
    (d : ℕ) (hd : d < m) (last : Bool) : (subPatchCenters (Spec.image dim) patches)[Spec.faceNumber m p d last]? = some (Spec.image dim c (Spec.centre m d last)) := by
  have hdirs : ∀ c ∈ patches, directions c = c.degrees.map fun d => ⟨d, none⟩ := fun c hc => by simp [directions, (h c hc).1]
  have hc : c ∈ patches := List.mem_of_getElem? hp
  rw [centers_get dim m patches (fun c hc => by rw [hdirs c hc, List.length_map, (h c hc).2]) p c hp d hd, hdirs c hc]
  have h0 : (c.degrees.map fun d => (⟨d, none⟩ : Direction K)).map (·.lower) = List.replicate m 0 := by
    rw [← (h c hc).2, List.map_map]
    exact List.map_eq_replicate_iff.2 fun _ _ => rfl
  have h1 : (c.degrees.map fun d => (⟨d, none⟩ : Direction K)).map (·.upper) = List.replicate m 1 := by
    rw [← (h c hc).2, List.map_map]
    exact List.map_eq_replicate_iff.2 fun _ _ => rfl
  rw [h0, h1, query_bezier m d hd last]

/-! ### Numbers -/

theorem start_get (placed : ℕ → List (Spline K (List K))) (N e a : ℕ) (he : e < N) (c : Spline K (List K)) (hc : (placed e)[a]? = some c) :
    ((List.range N).flatMap placed)[Spec.start placed e + a]? = some c := by
  induction N with
  | zero => omega
  | succ N ih =>
    rw [List.range_succ, List.flatMap_append]
    by_cases h : e < N
    · have := ih h
      rw [List.getElem?_append_left (List.getElem?_eq_some_iff.1 this).1]
      exact this
    · obtain rfl : e = N := by omega
      unfold Spec.start
      rw [List.getElem?_append_right (by omega)]
      simpa using hc

theorem start_mono (placed : ℕ → List (Spline K (List K))) {e e' a : ℕ} (h : e < e') (ha : a < (placed e).length) : Spec.start placed e + a < Spec.start placed e' := by
  induction e' with
  | zero => omega
  | succ e' ih =>
    have hs : Spec.start placed (e' + 1) = Spec.start placed e' + (placed e').length := by
      unfold Spec.start
      rw [List.range_succ, List.flatMap_append, List.length_append]
      simp
    by_cases he : e < e'
    · have := ih he; omega
    · obtain rfl : e = e' := by omega
      omega

theorem start_ne (placed : ℕ → List (Spline K (List K))) {e e' a a' : ℕ} (h : e ≠ e') (ha : a < (placed e).length) (ha' : a' < (placed e').length) :
    Spec.start placed e + a ≠ Spec.start placed e' + a' := by
  rcases Nat.lt_or_gt_of_ne h with h | h
  · have := start_mono placed h ha; omega
  · have := start_mono placed h ha'; omega

theorem faceNumber_inj {m p p' d d' : ℕ} {last last' : Bool} (hd : d < m) (hd' : d' < m) (h : Spec.faceNumber m p d last = Spec.faceNumber m p' d' last') : p = p' := by
  unfold Spec.faceNumber at h
  have h1 : (2 * d + (if last then 1 else 0) + 2 * m * p) / (2 * m) = p := by
    rw [Nat.add_mul_div_left _ _ (by omega), Nat.div_eq_of_lt (by split <;> omega), Nat.zero_add]
  have h2 : (2 * d' + (if last' then 1 else 0) + 2 * m * p') / (2 * m) = p' := by
    rw [Nat.add_mul_div_left _ _ (by omega), Nat.div_eq_of_lt (by split <;> omega), Nat.zero_add]
  rw [← h1, h, h2]

theorem distSq_self (p : List K) : distSq p p = 0 := by
  unfold distSq
  induction p with
  | nil => rfl
  | cons x p ih => simp only [List.zipWith_cons_cons, List.map_cons, List.sum_cons, ih, sub_self, mul_zero, add_zero]

theorem digits_ne {ns : List ℕ} {e e' axis i : ℕ} (hi : (digits ns e)[axis]? = some i) (he : digits ns e' = (digits ns e).set axis (i + 1)) : e ≠ e' := by
  rintro rfl
  have h := congrArg (fun l : List ℕ => l[axis]?) he
  simp only [List.getElem?_set, if_true, if_pos (List.getElem?_eq_some_iff.1 hi).1, hi, Option.some_inj] at h
  omega

/-! ### Theorems -/

variable {sqrt : K → K} {eps : K} {order : List ℕ} {tol : K}

/-- C120: the patches of a microstructure without gaps (C116), all of them Bezier splines with `m` parameters. If no face center is close to two others, the detection of interfaces returns, and it
connects every face in the common side of two neighbouring elements with a face of the neighbour that has the same points; the connections are mutual. -/
theorem neighbours_connected_partial {x : Settings K} {n m dim : ℕ} {breaks : List (List K)} {closing : Option Char} {patches : List (Spline K (List K))}
    (h : Spec.IsWatertight x n m dim breaks closing (some patches)) (hb : ∀ c ∈ patches, c.knotVectors = none ∧ c.degrees.length = m)
    (H : Interfaces.Spec.Call sqrt eps order (subPatchCenters (Spec.image dim) patches) tol m dim)
    (huniq : ∀ i j k, Partner (subPatchCenters (Spec.image dim) patches) tol i j → Partner (subPatchCenters (Spec.image dim) patches) tol i k → j = k) :
    ∃ interfaces, interfacesFromBoundaryCenters sqrt eps order (subPatchCenters (Spec.image dim) patches) tol m dim = some interfaces ∧
      Spec.IsConnected x n m dim breaks closing patches interfaces := by
  obtain ⟨res, hres, -, hexact⟩ := interfaces_exact_partial H huniq
  refine ⟨res, hres, ?_⟩
  obtain ⟨closures, tile, placed, h1, h2, h3, h4⟩ := h
  rw [Option.some_inj] at h2
  refine ⟨closures, tile, placed, h1, h2, h3, ?_⟩
  have key : ∀ e e' axis (v v' : K), e < (Spec.elements breaks).prod → e' < (Spec.elements breaks).prod → e ≠ e' →
      Watertight.Spec.Continues n m dim (tile e) (placed e) (tile e') (placed e') axis v v' → Spec.Linked n m dim tile placed e e' axis v v' res := by
    intro e e' axis v v' he he' hne hcont a t c ht hc d hd last hon
    obtain ⟨a', t', c', ht', hc', d', hd', last', hon', hface, hcentre⟩ := hcont a t c ht hc d hd last hon
    refine ⟨a', t', c', ht', hc', d', hd', last', hon', hface, ?_⟩
    have g1 := bezier_centers_get dim m patches hb (Spec.start placed e + a) c (by rw [h2]; exact start_get placed _ e a he c hc) d hd last
    have g2 := bezier_centers_get dim m patches hb (Spec.start placed e' + a') c' (by rw [h2]; exact start_get placed _ e' a' he' c' hc') d' hd' last'
    have l1 := (List.getElem?_eq_some_iff.1 g1).1
    have l2 := (List.getElem?_eq_some_iff.1 g2).1
    have hnum : Spec.faceNumber m (Spec.start placed e + a) d last ≠ Spec.faceNumber m (Spec.start placed e' + a') d' last' := fun heq =>
      start_ne placed hne (List.getElem?_eq_some_iff.1 hc).1 (List.getElem?_eq_some_iff.1 hc').1 (faceNumber_inj hd hd' heq)
    have e1 : (subPatchCenters (Spec.image dim) patches).getD (Spec.faceNumber m (Spec.start placed e + a) d last) [] = Spec.image dim c (Spec.centre m d last) := by
      rw [List.getD_eq_getElem?_getD, g1]; rfl
    have e2 : (subPatchCenters (Spec.image dim) patches).getD (Spec.faceNumber m (Spec.start placed e' + a') d' last') [] = Spec.image dim c (Spec.centre m d last) := by
      rw [List.getD_eq_getElem?_getD, g2, hcentre]; rfl
    have htol : 0 < tol * tol := mul_pos H.tol_pos H.tol_pos
    refine ⟨(hexact _ l1).1 _ |>.2 ⟨l1, l2, hnum, ?_⟩, (hexact _ l2).1 _ |>.2 ⟨l2, l1, hnum.symm, ?_⟩⟩
    · rw [e1, e2, distSq_self]; exact htol
    · rw [e1, e2, distSq_self]; exact htol
  intro e e' axis i he he' hi hdig
  obtain ⟨c1, c2⟩ := h4 e e' axis i he he' hi hdig
  have hne := digits_ne hi hdig
  exact ⟨key e e' axis 1 0 he he' hne c1, key e' e axis 0 1 he' he hne.symm c2⟩

/-- C120, any arrangement of the patches: what is returned connects a face only with a face whose center is closer than the tolerance. -/
theorem connections_sound {m dim : ℕ} {patches : List (Spline K (List K))} (hb : ∀ c ∈ patches, c.knotVectors = none ∧ c.degrees.length = m)
    (H : Interfaces.Spec.Call sqrt eps order (subPatchCenters (Spec.image dim) patches) tol m dim) {interfaces : List Int}
    (h : interfacesFromBoundaryCenters sqrt eps order (subPatchCenters (Spec.image dim) patches) tol m dim = some interfaces) {p p' d d' : ℕ} {last last' : Bool} {c c' : Spline K (List K)}
    (hp : patches[p]? = some c) (hp' : patches[p']? = some c') (hd : d < m) (hd' : d' < m)
    (hlink : interfaces.getD (Spec.faceNumber m p d last) 0 = Int.ofNat (Spec.faceNumber m p' d' last')) :
    distSq (Spec.image dim c (Spec.centre m d last)) (Spec.image dim c' (Spec.centre m d' last')) < tol * tol := by
  have g1 := bezier_centers_get dim m patches hb p c hp d hd last
  have g2 := bezier_centers_get dim m patches hb p' c' hp' d' hd' last'
  rcases (interfaces_sound H h).2 _ (List.getElem?_eq_some_iff.1 g1).1 with h0 | ⟨j, hj, hpart⟩
  · rw [h0] at hlink; exact absurd hlink (by simp)
  · rw [hj] at hlink
    obtain rfl : j = Spec.faceNumber m p' d' last' := by simpa using hlink
    have := hpart.2.2.2
    rwa [List.getD_eq_getElem?_getD, g1, List.getD_eq_getElem?_getD, g2] at this

/-- C120 for the tile classes of the library for which microstructures are watertight (`Spec.Seamless`, see C116): all deformation functions, tilings, closing faces and parametrisations. -/
theorem class_connected_partial {make : Option String → Option (Tiles.Mat ℝ) → Option (List (Tiles.Mat ℝ)) → Option (Tiles.Tile ℝ)} {n : ℕ} {points : List (List ℝ)} {admissible : (List ℝ → List ℝ) → Prop}
    (hS : Watertight.Spec.Seamless make n points admissible) {eps₀ : ℝ} (ht : 0 < eps₀) {lib : MicroGeometry.Library ℝ} (hL : MicroGeometry.Spec.Contract eps₀ (BezierSpline.Clamped eps₀) lib)
    {x : Settings ℝ} (hC : MicroGeometry.Spec.Composes x.deformation.weights.isSome lib.compose) (face : Option Char) (dim : ℕ)
    (hx : x.createTile = fun p c => (MicroTile.createTile make face p none c).map Prod.fst) (hpts : x.evaluationPoints = points) (hφ : Watertight.Spec.Pointwise admissible x.parametrization)
    {ds : List (KnotInsertion.Dim ℝ)} {tiles : List ℕ} (hds : ds.length = n) (hs : Watertight.Spec.SpanWise eps₀ x dim ds tiles) {patches : List (Spline ℝ (List ℝ))}
    (hcreated : MicroGeometry.create lib eps₀ x face true = some patches) (hb : ∀ c ∈ patches, c.knotVectors = none ∧ c.degrees.length = n) {sqrt : ℝ → ℝ} {eps tol : ℝ} {order : List ℕ}
    (H : Interfaces.Spec.Call sqrt eps order (subPatchCenters (Spec.image dim) patches) tol n dim)
    (huniq : ∀ i j k, Partner (subPatchCenters (Spec.image dim) patches) tol i j → Partner (subPatchCenters (Spec.image dim) patches) tol i k → j = k) :
    ∃ interfaces, interfacesFromBoundaryCenters sqrt eps order (subPatchCenters (Spec.image dim) patches) tol n dim = some interfaces ∧
      Spec.IsConnected x n n dim (List.zipWith (fun d t => Micro.Spec.subdivide d.uniqueKnots fun _ => t) ds tiles) face patches interfaces := by
  have h := (hS eps₀ lib x face dim ht hL hC hx hpts hφ).1 ds tiles hds hs (by rw [hcreated]; rfl)
  rw [hcreated] at h
  exact neighbours_connected_partial h hb H huniq

/-! ### Concrete case -/

/-- a straight line -/
def segment (a b : ℚ) : Spline ℚ (List ℚ) := ⟨[1], none, none, [[a], [b]]⟩

theorem segment_image (a b x : ℚ) : Spec.image 1 (segment a b) [x] = [(1 - x) * a + x * b] := by
  have hr2 : List.range 2 = [0, 1] := rfl
  simp [MicroGeometry.Spec.image, segment, point, value, tensorEval, netSize, directions, Direction.size, basisValues, Direction.basis, bernstein, basisProduct, digits, hr2]

theorem segment_point (a b x : ℚ) (k : ℕ) : point (segment a b) [x] k = (1 - x) * ([a] : List ℚ).getD k 0 + x * ([b] : List ℚ).getD k 0 := by
  have hr2 : List.range 2 = [0, 1] := rfl
  simp [segment, point, value, tensorEval, netSize, directions, Direction.size, basisValues, Direction.basis, bernstein, basisProduct, digits, hr2]

/-- the tile is the unit interval, the deformation function the identity, two tiles -/
def line : Settings ℚ where
  deformation := segment 0 1
  tiling := [2]
  parametrization := none
  evaluationPoints := []
  createTile := fun _ _ => some [segment 0 1]

theorem cube_one {w : List ℚ} (h : Spec.Cube 1 w) : ∃ x, w = [x] ∧ 0 ≤ x ∧ x ≤ 1 := by
  obtain ⟨h1, h2⟩ := h
  obtain ⟨x, rfl⟩ := List.length_eq_one_iff.1 h1
  exact ⟨x, rfl, h2 x (by simp)⟩

theorem segment_face (a b : ℚ) (last : Bool) : Spec.face 1 1 (segment a b) 0 last = {[if last then b else a]} := by
  ext y
  simp only [Watertight.Spec.face, Set.mem_setOf_eq, Set.mem_singleton_iff]
  constructor
  · rintro ⟨w, hw, h0, rfl⟩
    obtain ⟨x, rfl, -⟩ := cube_one hw
    rw [segment_image]
    have hx : x = if last then 1 else 0 := by simpa using h0
    subst hx
    cases last <;> simp
  · rintro rfl
    refine ⟨[if last then 1 else 0], ⟨rfl, ?_⟩, by simp, ?_⟩
    · intro x hx
      rw [List.mem_singleton] at hx
      subst hx
      cases last <;> norm_num
    · rw [segment_image]
      cases last <;> simp

theorem line_watertight : Spec.IsWatertight line 1 1 1 [[0, 1 / 2, 1]] none (some [segment 0 (1 / 2), segment (1 / 2) 1]) := by
  refine ⟨[none, none], fun _ => [segment 0 1], fun e => if e = 0 then [segment 0 (1 / 2)] else [segment (1 / 2) 1], rfl, ?_, ?_, ?_⟩
  · simp [MicroGeometry.Spec.elements, List.range_succ]
  · intro e he
    have he2 : e < 2 := by simpa [MicroGeometry.Spec.elements] using he
    refine ⟨rfl, ?_⟩
    have hplace : ∀ x : ℚ, Spec.place [[0, 1 / 2, 1]] (digits (Spec.elements [[(0 : ℚ), 1 / 2, 1]]) e) (Spec.image 1 (segment 0 1) [x]) = [if e = 0 then x / 2 else 1 / 2 + x / 2] := by
      intro x
      rw [segment_image]
      rcases (by omega : e = 0 ∨ e = 1) with rfl | rfl
      · simp [MicroGeometry.Spec.place, MicroGeometry.Spec.elements, digits]; ring
      · simp [MicroGeometry.Spec.place, MicroGeometry.Spec.elements, digits]; ring
    have hdom : ∀ y : ℚ, 0 ≤ y → y ≤ 1 → InDomain line.deformation [y] := by
      intro y h0 h1
      exact .cons ⟨h0, h1⟩ .nil
    have hplaced : ∀ a b : ℚ, (∀ x, (1 - x) * a + x * b = if e = 0 then x / 2 else 1 / 2 + x / 2) → Spec.Placed line.deformation 1 [[0, 1 / 2, 1]] e (segment 0 1) (segment a b) := by
      intro a b hab u hu
      obtain ⟨x, rfl, h0, h1⟩ := cube_one hu
      rw [hplace]
      refine ⟨hdom _ ?_ ?_, fun k => ?_⟩
      · split <;> linarith
      · split <;> linarith
      · rw [show line.deformation = segment 0 1 from rfl, segment_point, segment_point]
        rcases k with _ | k
        · simpa using hab x
        · simp
    rcases (by omega : e = 0 ∨ e = 1) with rfl | rfl
    · exact .cons (hplaced _ _ fun x => by simp; ring) .nil
    · exact .cons (hplaced _ _ fun x => by simp; ring) .nil
  · intro e e' axis i he he' hi hdig
    have he2 : e < 2 := by simpa [MicroGeometry.Spec.elements] using he
    have he2' : e' < 2 := by simpa [MicroGeometry.Spec.elements] using he'
    have haxis : axis = 0 := by
      have := (List.getElem?_eq_some_iff.1 hi).1
      simp [digits_length, MicroGeometry.Spec.elements] at this
      exact this
    subst haxis
    simp only [MicroGeometry.Spec.elements, digits, List.map_cons, List.map_nil, List.length_cons, List.length_nil, List.getElem?_cons_zero, Option.some_inj, List.set_cons_zero, List.cons.injEq,
      and_true] at hi hdig
    obtain rfl : e = 0 := by omega
    obtain rfl : e' = 1 := by omega
    have hside : ∀ last (v : ℚ), Spec.OnSide 1 1 (segment 0 1) 0 last 0 v ↔ (if last then 1 else 0) = v := by
      intro last v
      unfold Watertight.Spec.OnSide
      rw [segment_face]
      simp
    constructor
    · intro a t c ht hc d hd last hon
      obtain rfl : d = 0 := by omega
      obtain ⟨rfl, rfl⟩ : a = 0 ∧ segment 0 1 = t := by
        rcases a with _ | a
        · exact ⟨rfl, by simpa using ht⟩
        · simp at ht
      obtain rfl : segment 0 (1 / 2) = c := by simpa using hc
      have hlast : last = true := by
        have := (hside last 1).1 hon
        cases last
        · simp at this
        · rfl
      subst hlast
      refine ⟨0, segment 0 1, segment (1 / 2) 1, rfl, rfl, 0, by omega, false, (hside false 0).2 rfl, ?_, ?_⟩
      · rw [segment_face, segment_face]; rfl
      · simp [Watertight.Spec.centre, segment_image]
    · intro a t c ht hc d hd last hon
      obtain rfl : d = 0 := by omega
      obtain ⟨rfl, rfl⟩ : a = 0 ∧ segment 0 1 = t := by
        rcases a with _ | a
        · exact ⟨rfl, by simpa using ht⟩
        · simp at ht
      obtain rfl : segment (1 / 2) 1 = c := by simpa using hc
      have hlast : last = false := by
        have := (hside last 0).1 hon
        cases last
        · rfl
        · simp at this
      subst hlast
      refine ⟨0, segment 0 1, segment 0 (1 / 2), rfl, rfl, 0, by omega, true, (hside true 1).2 rfl, ?_, ?_⟩
      · rw [segment_face, segment_face]; rfl
      · simp [Watertight.Spec.centre, segment_image]

-- the middle of the face of a patch with two parameters, where the second one has the last value; its knot vectors do not start with 0
example : Spec.MiddleOfFace (⟨[1, 1], some [[2, 2, 6, 6], [1, 1, 3, 4, 4]], none, []⟩ : Spline ℚ (List ℚ)) 1 true [4, 4] := by
  refine ⟨rfl, fun j dir hj => ?_⟩
  rcases j with _ | _ | j
  · cases hj; decide +kernel
  · cases hj; decide +kernel
  · simp [directions] at hj

theorem line_centers : subPatchCenters (Spec.image 1) [segment 0 (1 / 2), segment (1 / 2) 1] = [[0], [1 / 2], [1 / 2], [1]] := by
  have hq : ∀ a b : ℚ, evaluateBoundaryCenters (Spec.image 1) (segment a b) = [[a], [b]] := by
    intro a b
    have : boundaryCenters ((directions (segment a b)).map (·.lower)) ((directions (segment a b)).map (·.upper)) = [[0], [1]] := rfl
    rw [evaluateBoundaryCenters, this]
    simp [segment_image]
  simp [subPatchCenters, hq]

-- the hypotheses of `neighbours_connected_partial`: two tiles on a line; the last face of the first patch and the first face of the second patch are connected
example : ∃ interfaces, interfacesFromBoundaryCenters (fun _ => 1) (1 / 100) [0, 1, 2, 3] (subPatchCenters (Spec.image 1) [segment 0 (1 / 2), segment (1 / 2) 1]) (1 / 10) 1 1 = some interfaces ∧
    Spec.IsConnected line 1 1 1 [[0, 1 / 2, 1]] none [segment 0 (1 / 2), segment (1 / 2) 1] interfaces := by
  refine neighbours_connected_partial line_watertight (by simp [segment]) ?_ ?_
  · rw [line_centers]
    exact ⟨by decide, by decide, by decide, by decide, by decide, by decide +kernel, by decide +kernel, by decide +kernel, ⟨by decide, by decide +kernel⟩⟩
  · rw [line_centers]
    have h : ∀ i ∈ List.range 4, ∀ j ∈ List.range 4, ∀ k ∈ List.range 4, i ≠ j → i ≠ k → distSq (([[0], [1 / 2], [1 / 2], [1]] : List (List ℚ)).getD i []) (([[0], [1 / 2], [1 / 2], [1]] : List (List ℚ)).getD j []) < 1 / 10 * (1 / 10) →
        distSq (([[0], [1 / 2], [1 / 2], [1]] : List (List ℚ)).getD i []) (([[0], [1 / 2], [1 / 2], [1]] : List (List ℚ)).getD k []) < 1 / 10 * (1 / 10) → j = k := by decide +kernel
    rintro i j k ⟨h1, h2, h3, h4⟩ ⟨-, h5, h6, h7⟩
    exact h i (List.mem_range.2 h1) j (List.mem_range.2 h2) k (List.mem_range.2 h5) h3 h6 h4 h7

end Splinepy.MicroInterfaces
