import Verif.Lemma.BezierFace
import Verif.Model.MicroTile
import Verif.Props.MicroGeometry
import Verif.Props.SvgView
import Verif.Props.TileArmadillo
import Verif.Props.TileInverse
import Verif.Props.TileJoins2D
import Verif.Props.TileJoinsClosing3D
import Verif.Props.TileJoinsHollow

/-!
C116: microstructures have no gaps. The faces with which the tile of one element ends at the common side of two elements are faces of the tile of the other element, after the
deformation.
-/
set_option linter.unusedSectionVars false
namespace Splinepy.Watertight
open Splinepy.Spec Finset Splinepy.BezierFace
open Splinepy.Index (Spline)
open Splinepy.MicroGeometry (Library Settings prerequisites Prepared Spec.Cube Spec.image Spec.place Spec.elements Spec.Placed Spec.TilePatch Spec.Composes Spec.Contract)
open Splinepy.Tiles (Tile Mat Patch)
open Splinepy.Tiles.Spec (bezier OnPlane Meets Neighbours sides readings)

variable {K : Type} [Field K] [LinearOrder K] [IsStrictOrderedRing K]

/-! ### specification -/

/-- the points of a face of a patch with `m` parameters and `dim` coordinates: the parameter number `d` has its first or its last value -/
def Spec.face (m dim : ℕ) (c : Spline K (List K)) (d : ℕ) (last : Bool) : Set (List K) :=
  {x | ∃ w, Spec.Cube m w ∧ w.getD d 0 = (if last then 1 else 0) ∧ x = Spec.image dim c w}

/-- the face of the tile patch lies in the side `axis = v` of the unit cube -/
def Spec.OnSide (n m : ℕ) (t : Spline K (List K)) (d : ℕ) (last : Bool) (axis : ℕ) (v : K) : Prop := ∀ x ∈ Spec.face m n t d last, x.getD axis 0 = v

/-- parameters of the centre of a face of a patch with `m` parameters -/
def Spec.centre (m d : ℕ) (last : Bool) : List K := (List.replicate (m - 1) (1 / 2)).insertIdx d (if last then 1 else 0)

/-- Every face of the first tile in the side `axis = v` is, after the deformation, a face of the second tile in the side `axis = v'`: with the same points and the same centre. -/
def Spec.Continues (n m dim : ℕ) (tile placed tile' placed' : List (Spline K (List K))) (axis : ℕ) (v v' : K) : Prop :=
  ∀ (a : ℕ) (t c : Spline K (List K)), tile[a]? = some t → placed[a]? = some c → ∀ d < m, ∀ last, Spec.OnSide n m t d last axis v →
    ∃ (a' : ℕ) (t' c' : Spline K (List K)), tile'[a']? = some t' ∧ placed'[a']? = some c' ∧ ∃ d' < m, ∃ last',
      Spec.OnSide n m t' d' last' axis v' ∧ Spec.face m dim c d last = Spec.face m dim c' d' last' ∧
        Spec.image dim c (Spec.centre m d last) = Spec.image dim c' (Spec.centre m d' last')

/-- The created microstructure has, for each element, the patches of the tile of this element, placed by the deformation function, and the patches of neighbouring elements share their faces in the
common side. -/
def Spec.IsWatertight (x : Settings K) (n m dim : ℕ) (breaks : List (List K)) (closing : Option Char) (created : Option (List (Spline K (List K)))) : Prop :=
  ∃ (closures : List (Option MicroCreate.Side)) (tile placed : ℕ → List (Spline K (List K))),
    MicroCreate.closures (Spec.elements breaks) closing = some closures ∧
    created = some ((List.range (Spec.elements breaks).prod).flatMap placed) ∧
    (∀ e < (Spec.elements breaks).prod,
      x.createTile (x.parametrization.map fun f => f (x.evaluationPoints.map (Spec.place breaks (digits (Spec.elements breaks) e)))) (closures.getD e none) = some (tile e) ∧
      List.Forall₂ (Spec.Placed x.deformation n breaks e) (tile e) (placed e)) ∧
    ∀ e e' axis i, e < (Spec.elements breaks).prod → e' < (Spec.elements breaks).prod → (digits (Spec.elements breaks) e)[axis]? = some i →
      digits (Spec.elements breaks) e' = (digits (Spec.elements breaks) e).set axis (i + 1) →
      Spec.Continues n m dim (tile e) (placed e) (tile e') (placed e') axis 1 0 ∧ Spec.Continues n m dim (tile e') (placed e') (tile e) (placed e) axis 0 1

/-! ### faces of tile patches -/

/-- patches with `m` parameters in the unit cube of dimension `n` -/
def Tidy (n m : ℕ) (t : List (Patch K)) : Prop :=
  ∀ P ∈ t, P.degrees.length = m ∧ P.cps.length = (P.degrees.map (· + 1)).prod ∧ ∀ c ∈ P.cps, c.length = n ∧ ∀ x ∈ c, 0 ≤ x ∧ x ≤ 1

theorem bez_const (degs : List ℕ) (v : K) (w : List K) (hw : w.length = degs.length) : bez degs (fun _ => v) w = v := by
  unfold bez
  rw [← sum_mul, basisProduct_sum _ _ (by simp [hw])]
  have : (List.zipWith (fun (b : ℕ → K) n => ∑ j ∈ range n, b j) (List.zipWith (fun d x j => bernstein d j 0 1 x) degs w) (degs.map (· + 1))).prod = 1 := by
    clear v
    induction degs generalizing w with
    | nil => simp
    | cons d degs ih =>
      cases w with
      | nil => simp at hw
      | cons x w =>
        simp only [List.zipWith_cons_cons, List.map_cons, List.prod_cons, bernstein_sum, one_mul]
        exact ih w (by simpa using hw)
  rw [this, one_mul]

theorem basisProduct_half_pos (degs : List ℕ) (l : ℕ) (hl : l < (degs.map (· + 1)).prod) :
    0 < basisProduct (List.zipWith (fun d (x : K) j => bernstein d j 0 1 x) degs (List.replicate degs.length (1 / 2))) (digits (degs.map (· + 1)) l) := by
  induction degs generalizing l with
  | nil => simp [basisProduct]
  | cons d degs ih =>
    simp only [List.map_cons, List.prod_cons] at hl
    simp only [List.length_cons, List.replicate_succ, List.zipWith_cons_cons, List.map_cons, digits, basisProduct, List.prod_cons]
    refine mul_pos ?_ (ih (l / (d + 1)) (Nat.div_lt_of_lt_mul hl))
    unfold bernstein
    have h1 : 0 < (d.choose (l % (d + 1)) : K) := by
      exact_mod_cast Nat.choose_pos (Nat.lt_succ_iff.1 (Nat.mod_lt _ (Nat.succ_pos d)))
    have h2 : ((1 : K) / 2 - 0) / (1 - 0) = 1 / 2 := by norm_num
    have h3 : ((1 : K) - 1 / 2) / (1 - 0) = 1 / 2 := by norm_num
    rw [h2, h3]
    positivity

theorem bez_zero (degs : List ℕ) (c : ℕ → K) (hc : ∀ l < (degs.map (· + 1)).prod, 0 ≤ c l) (h : bez degs c (List.replicate degs.length (1 / 2)) = 0) :
    ∀ l < (degs.map (· + 1)).prod, c l = 0 := by
  intro l hl
  unfold bez at h
  rw [sum_eq_zero_iff_of_nonneg fun l hl => mul_nonneg (basisProduct_half_pos degs l (mem_range.1 hl)).le (hc l (mem_range.1 hl))] at h
  rcases mul_eq_zero.1 (h l (mem_range.2 hl)) with h' | h'
  · exact absurd h' (basisProduct_half_pos degs l hl).ne'
  · exact h'

theorem bez_extreme (degs : List ℕ) (c : ℕ → K) (hc : ∀ l < (degs.map (· + 1)).prod, 0 ≤ c l ∧ c l ≤ 1) (v : K) (hv : v = 0 ∨ v = 1)
    (h : bez degs c (List.replicate degs.length (1 / 2)) = v) : ∀ l < (degs.map (· + 1)).prod, c l = v := by
  rcases hv with rfl | rfl
  · exact bez_zero degs c (fun l hl => (hc l hl).1) h
  · intro l hl
    have h1 : bez degs (fun l => 1 - c l) (List.replicate degs.length (1 / 2)) = 0 := by
      have h2 := bez_const degs (1 : K) (List.replicate degs.length (1 / 2)) (by simp)
      unfold bez at h h2 ⊢
      simp only [mul_sub, sum_sub_distrib]
      rw [h, h2, sub_self]
    linarith [bez_zero degs _ (fun l hl => by linarith [(hc l hl).2]) h1 l hl]

theorem face_mem {P : Patch K} (hl : P.cps.length = (P.degrees.map (· + 1)).prod) {d : ℕ} {last : Bool} {x : List K} (hx : x ∈ Tiles.Spec.face P d last) : x ∈ P.cps := by
  unfold Tiles.Spec.face at hx
  obtain ⟨i, hi, rfl⟩ := List.mem_map.1 hx
  rw [List.mem_filter, List.mem_range, ← hl] at hi
  rw [List.getD_eq_getElem _ _ hi.1]
  exact List.getElem_mem hi.1

theorem face_length (P : Patch K) {d : ℕ} (hd : d < P.degrees.length) (last : Bool) : (Tiles.Spec.face P d last).length = ((P.degrees.eraseIdx d).map (· + 1)).prod := by
  obtain ⟨l1, p, l2, hP, rfl, he⟩ := split_at P.degrees d hd
  rw [face_getD P hP last, List.length_map, List.length_range, he]

theorem cube_erase {m d : ℕ} {w : List K} (hw : Spec.Cube m w) (hd : d < m) : Spec.Cube (m - 1) (w.eraseIdx d) :=
  ⟨by rw [List.length_eraseIdx, hw.1, if_pos hd], fun x hx => hw.2 x (List.mem_of_mem_eraseIdx hx)⟩

theorem cube_insert {m d : ℕ} {w : List K} (hw : Spec.Cube (m - 1) w) (hd : d < m) (last : Bool) :
    Spec.Cube m (w.insertIdx d (if last then 1 else 0)) ∧ (w.insertIdx d (if last then 1 else 0)).getD d 0 = (if last then 1 else 0) ∧
      (w.insertIdx d (if last then 1 else 0)).eraseIdx d = w := by
  have hl : d ≤ w.length := by rw [hw.1]; omega
  refine ⟨⟨by rw [List.length_insertIdx, if_pos hl, hw.1]; omega, fun x hx => ?_⟩, ?_, List.eraseIdx_insertIdx_self _⟩
  · rcases (List.mem_insertIdx hl).1 hx with rfl | h
    · cases last <;> norm_num
    · exact hw.2 x h
  · have h := List.getElem_insertIdx_self (l := w) (x := if last then (1 : K) else 0) (i := d) (by rw [List.length_insertIdx, if_pos hl]; omega)
    rw [List.getD_eq_getElem _ _ (by rw [List.length_insertIdx, if_pos hl]; omega)]
    exact h

/-- The face lies in the side of the cube exactly if its control points do. -/
theorem onSide_iff {n m : ℕ} {t : List (Patch K)} (ht : Tidy n m t) {P : Patch K} (hP : P ∈ t) {d : ℕ} (hd : d < m) (last : Bool) {axis : ℕ} (ha : axis < n) {v : K} (hv : v = 0 ∨ v = 1) :
    Spec.OnSide n m (bezier P) d last axis v ↔ OnPlane (Tiles.Spec.face P d last) axis v := by
  obtain ⟨h1, h2, h3⟩ := ht P hP
  have hd' : d < P.degrees.length := by rw [h1]; exact hd
  have hlen : (P.degrees.eraseIdx d).length = m - 1 := by rw [List.length_eraseIdx, if_pos hd', h1]
  have himg : ∀ w : List K, (Spec.image n (bezier P) w).getD axis 0 = point (bezier P) w axis := fun w => getD_map_range _ _ _ ha _
  constructor
  · intro h x hx
    obtain ⟨w1, w2, w3⟩ := cube_insert (w := List.replicate (P.degrees.eraseIdx d).length (1 / 2 : K)) (m := m) (d := d)
      ⟨by rw [List.length_replicate, hlen], fun x hx => by rw [List.eq_of_mem_replicate hx]; norm_num⟩ hd last
    have h4 := h _ ⟨_, w1, w2, rfl⟩
    rw [himg, face_point P d hd' last _ (by rw [w1.1, h1]) w2, w3] at h4
    have h5 := bez_extreme _ _ (fun l hl => ?_) v hv h4
    · obtain ⟨g, hg, rfl⟩ := List.mem_iff_getElem.1 hx
      have := h5 g (by rw [← face_length P hd' last]; exact hg)
      rwa [List.getD_eq_getElem _ _ hg] at this
    · rw [← face_length P hd' last] at hl
      rw [List.getD_eq_getElem _ _ hl]
      obtain ⟨hcl, hcx⟩ := h3 _ (face_mem h2 (List.getElem_mem hl))
      rw [List.getD_eq_getElem _ _ (by rw [hcl]; exact ha)]
      exact hcx _ (List.getElem_mem _)
  · rintro h x ⟨w, w1, w2, rfl⟩
    rw [himg, face_point P d hd' last w (by rw [w1.1, h1]) w2, ← bez_const (P.degrees.eraseIdx d) v (w.eraseIdx d) (by rw [(cube_erase w1 hd).1, hlen])]
    refine bez_congr (fun l hl => ?_) _
    rw [← face_length P hd' last] at hl
    rw [List.getD_eq_getElem _ _ hl]
    exact h _ (List.getElem_mem hl)

/-- Two faces which agree but for the coordinate `axis`, one in the upper side of its cube and one in the lower side of the next one, are the same after the deformation. -/
theorem same_face {deformation : Spline K (List K)} {n m dim : ℕ} {breaks : List (List K)} {e e' axis i : ℕ} {t u : List (Patch K)} (ht : Tidy n m t) (hu : Tidy n m u) {P Q : Patch K} (hP : P ∈ t)
    (hQ : Q ∈ u) {c c' : Spline K (List K)} (hc : Spec.Placed deformation n breaks e (bezier P) c) (hc' : Spec.Placed deformation n breaks e' (bezier Q) c') (ha : axis < n)
    (hi : (digits (Spec.elements breaks) e)[axis]? = some i) (he : digits (Spec.elements breaks) e' = (digits (Spec.elements breaks) e).set axis (i + 1))
    {d d' : ℕ} (hd : d < m) (hd' : d' < m) {last last' : Bool} (hp : OnPlane (Tiles.Spec.face P d last) axis 1) (hq : OnPlane (Tiles.Spec.face Q d' last') axis 0)
    (hs1 : ∀ w, Spec.Cube (m - 1) w → ∃ w', Spec.Cube (m - 1) w' ∧ ∀ k ≠ axis,
      faceValue (Q.degrees.eraseIdx d') (Tiles.Spec.face Q d' last') w' k = faceValue (P.degrees.eraseIdx d) (Tiles.Spec.face P d last) w k)
    (hs2 : ∀ w', Spec.Cube (m - 1) w' → ∃ w, Spec.Cube (m - 1) w ∧ ∀ k ≠ axis,
      faceValue (Q.degrees.eraseIdx d') (Tiles.Spec.face Q d' last') w' k = faceValue (P.degrees.eraseIdx d) (Tiles.Spec.face P d last) w k)
    (hs3 : ∀ k ≠ axis, faceValue (Q.degrees.eraseIdx d') (Tiles.Spec.face Q d' last') (List.replicate (m - 1) (1 / 2)) k =
      faceValue (P.degrees.eraseIdx d) (Tiles.Spec.face P d last) (List.replicate (m - 1) (1 / 2)) k) :
    Spec.face m dim c d last = Spec.face m dim c' d' last' ∧ Spec.image dim c (Spec.centre m d last) = Spec.image dim c' (Spec.centre m d' last') := by
  obtain ⟨p1, p2, p3⟩ := ht P hP
  obtain ⟨q1, q2, q3⟩ := hu Q hQ
  have hp' := (onSide_iff ht hP hd last ha (Or.inr rfl)).2 hp
  have hq' := (onSide_iff hu hQ hd' last' ha (Or.inl rfl)).2 hq
  have key : ∀ w w', Spec.Cube m w → w.getD d 0 = (if last then 1 else 0) → Spec.Cube m w' → w'.getD d' 0 = (if last' then 1 else 0) →
      (∀ k ≠ axis, faceValue (Q.degrees.eraseIdx d') (Tiles.Spec.face Q d' last') (w'.eraseIdx d') k = faceValue (P.degrees.eraseIdx d) (Tiles.Spec.face P d last) (w.eraseIdx d) k) →
      Spec.image dim c w = Spec.image dim c' w' := by
    intro w w' h1 h2 h3 h4 h5
    have hend := hp' _ ⟨w, h1, h2, rfl⟩
    have hbeg := hq' _ ⟨w', h3, h4, rfl⟩
    have hl : ∀ (s : Spline K (List K)) (w : List K), (Spec.image n s w).length = n := fun s w => by simp [MicroGeometry.Spec.image]
    refine List.map_congr_left fun k _ => MicroGeometry.neighbours_meet deformation n breaks e e' axis i _ _ c c' hc hc' hi he w w' (by rw [show (bezier P).degrees = P.degrees from rfl, p1]; exact h1)
      (by rw [show (bezier Q).degrees = Q.degrees from rfl, q1]; exact h3) ?_ ?_ k
    · rw [List.getElem?_eq_getElem (by rw [hl]; exact ha), ← hend, List.getD_eq_getElem _ _ (by rw [hl]; exact ha)]
    · refine List.ext_getElem (by rw [List.length_set, hl, hl]) fun k g1 g2 => ?_
      rw [hl] at g1
      rw [List.getElem_set]
      by_cases hk : axis = k
      · subst hk
        rw [if_pos rfl, ← hbeg, List.getD_eq_getElem _ _ (by rw [hl]; exact ha)]
      · rw [if_neg hk]
        have := h5 k (Ne.symm hk)
        unfold faceValue at this
        rw [← face_point Q d' (by rw [q1]; exact hd') last' w' (by rw [h3.1, q1]) h4, ← face_point P d (by rw [p1]; exact hd) last w (by rw [h1.1, p1]) h2] at this
        simpa [MicroGeometry.Spec.image] using this
  have hhalf : Spec.Cube (m - 1) (List.replicate (m - 1) (1 / 2 : K)) :=
    ⟨List.length_replicate, fun x hx => by rw [List.eq_of_mem_replicate hx]; norm_num⟩
  refine ⟨?_, ?_⟩
  rotate_left
  · obtain ⟨g1, g2, g3⟩ := cube_insert hhalf hd last
    obtain ⟨g1', g2', g3'⟩ := cube_insert hhalf hd' last'
    exact key _ _ g1 g2 g1' g2' (by unfold Spec.centre; rw [g3, g3']; exact hs3)
  ext x
  constructor
  · rintro ⟨w, h1, h2, rfl⟩
    obtain ⟨w', h3, h4⟩ := hs1 _ (cube_erase h1 hd)
    obtain ⟨g1, g2, g3⟩ := cube_insert h3 hd' last'
    exact ⟨_, g1, g2, key w _ h1 h2 g1 g2 (by rw [g3]; exact h4)⟩
  · rintro ⟨w', h1, h2, rfl⟩
    obtain ⟨w, h3, h4⟩ := hs2 _ (cube_erase h1 hd')
    obtain ⟨g1, g2, g3⟩ := cube_insert h3 hd last
    exact ⟨_, g1, g2, (key _ w' g1 g2 h1 h2 (by rw [g3]; exact h4)).symm⟩

theorem mem_sides {t : List (Patch K)} {f : List ℕ × List (List K)} : f ∈ t.flatMap sides ↔
    ∃ P ∈ t, ∃ d < P.degrees.length, ∃ last, f = ((P.degrees.eraseIdx d).map (· + 1), Tiles.Spec.face P d last) := by
  simp only [List.mem_flatMap, sides, List.mem_range, List.mem_cons, List.not_mem_nil, or_false]
  constructor
  · rintro ⟨P, hP, d, hd, h | h⟩
    · exact ⟨P, hP, d, hd, false, h⟩
    · exact ⟨P, hP, d, hd, true, h⟩
  · rintro ⟨P, hP, d, hd, last, h⟩
    refine ⟨P, hP, d, hd, ?_⟩
    cases last
    · exact Or.inl h
    · exact Or.inr h

theorem faceValue_set (degs : List ℕ) (F : List (List K)) (axis : ℕ) (v : K) (w : List K) (k : ℕ) (hk : k ≠ axis) :
    faceValue degs (F.map fun x => x.set axis v) w k = faceValue degs F w k := by
  unfold faceValue
  refine bez_congr (fun l _ => ?_) w
  rw [List.getD_eq_getElem?_getD, List.getD_eq_getElem?_getD, List.getD_eq_getElem?_getD, List.getD_eq_getElem?_getD, List.getElem?_map]
  cases F[l]? with
  | none => rfl
  | some x => simp [List.getElem?_set, Ne.symm hk]

/-- Tiles that meet share their faces after the deformation. -/
theorem continues_of_meets {deformation : Spline K (List K)} {n m dim : ℕ} {breaks : List (List K)} {e e' axis i : ℕ} {t u : List (Patch K)} (ht : Tidy n m t) (hu : Tidy n m u)
    (hmeet : Meets t u axis) {placed placed' : List (Spline K (List K))} (hpl : List.Forall₂ (Spec.Placed deformation n breaks e) (t.map bezier) placed)
    (hpl' : List.Forall₂ (Spec.Placed deformation n breaks e') (u.map bezier) placed') (ha : axis < n)
    (hi : (digits (Spec.elements breaks) e)[axis]? = some i) (he : digits (Spec.elements breaks) e' = (digits (Spec.elements breaks) e).set axis (i + 1)) :
    Spec.Continues n m dim (t.map bezier) placed (u.map bezier) placed' axis 1 0 ∧ Spec.Continues n m dim (u.map bezier) placed' (t.map bezier) placed axis 0 1 := by
  have at_ : ∀ {t : List (Patch K)} {placed : List (Spline K (List K))} {e : ℕ}, List.Forall₂ (Spec.Placed deformation n breaks e) (t.map bezier) placed → ∀ P ∈ t,
      ∃ (a : ℕ) (c : Spline K (List K)), (t.map bezier)[a]? = some (bezier P) ∧ placed[a]? = some c ∧ Spec.Placed deformation n breaks e (bezier P) c := by
    intro t placed e h P hP
    obtain ⟨a, ha, rfl⟩ := List.mem_iff_getElem.1 hP
    have hl := h.length_eq
    rw [List.length_map] at hl
    have h2 := (List.forall₂_iff_get.1 h).2 a (by rw [List.length_map]; exact ha) (by omega)
    refine ⟨a, placed[a]'(by omega), by rw [List.getElem?_map, List.getElem?_eq_getElem ha]; rfl, List.getElem?_eq_getElem _, ?_⟩
    simpa using h2
  have get_ : ∀ {t : List (Patch K)} {placed : List (Spline K (List K))} {e : ℕ}, List.Forall₂ (Spec.Placed deformation n breaks e) (t.map bezier) placed → ∀ (a : ℕ) s c,
      (t.map bezier)[a]? = some s → placed[a]? = some c → ∃ P ∈ t, s = bezier P ∧ Spec.Placed deformation n breaks e (bezier P) c := by
    intro t placed e h a s c hs hc
    obtain ⟨h1, rfl⟩ := List.getElem?_eq_some_iff.1 hs
    obtain ⟨h2, rfl⟩ := List.getElem?_eq_some_iff.1 hc
    have h3 := (List.forall₂_iff_get.1 h).2 a h1 h2
    rw [List.length_map] at h1
    exact ⟨t[a], List.getElem_mem h1, by rw [List.getElem_map], by simpa using h3⟩
  have hlen : ∀ {t : List (Patch K)} {P : Patch K} {d : ℕ}, Tidy n m t → P ∈ t → d < P.degrees.length → (P.degrees.eraseIdx d).length = m - 1 := by
    intro t P d h hP hd
    rw [List.length_eraseIdx, if_pos hd, (h P hP).1]
  constructor
  · intro a s c hs hc d hd last hon
    obtain ⟨P, hP, rfl, hpc⟩ := get_ hpl a s c hs hc
    have hdP : d < P.degrees.length := by rw [(ht P hP).1]; exact hd
    have hplane := (onSide_iff ht hP hd last ha (Or.inr rfl)).1 hon
    obtain ⟨g, hg, hg0, hr⟩ := hmeet.1 _ (mem_sides.2 ⟨P, hP, d, hdP, last, rfl⟩) hplane
    obtain ⟨Q, hQ, d', hdQ, last', rfl⟩ := mem_sides.1 hg
    obtain ⟨a', c', h1, h2, h3⟩ := at_ hpl' Q hQ
    have hd' : d' < m := by rw [← (hu Q hQ).1]; exact hdQ
    refine ⟨a', _, c', h1, h2, d', hd', last', (onSide_iff hu hQ hd' last' ha (Or.inl rfl)).2 hg0, ?_⟩
    obtain ⟨s1, s2⟩ := readings_points hr
    have s3 := readings_centre hr
    rw [hlen ht hP hdP, hlen hu hQ hdQ] at s1 s2 s3
    refine same_face ht hu hP hQ hpc h3 ha hi he hd hd' hplane hg0 (fun w hw => ?_) (fun w hw => ?_) fun k hk => by rw [← s3 k, faceValue_set _ _ _ _ _ _ hk]
    · obtain ⟨w', g1, g2⟩ := s1 w hw
      exact ⟨w', g1, fun k hk => by rw [← g2 k, faceValue_set _ _ _ _ _ _ hk]⟩
    · obtain ⟨w', g1, g2⟩ := s2 w hw
      exact ⟨w', g1, fun k hk => by rw [← g2 k, faceValue_set _ _ _ _ _ _ hk]⟩
  · intro a s c hs hc d' hd' last' hon
    obtain ⟨Q, hQ, rfl, hqc⟩ := get_ hpl' a s c hs hc
    have hdQ : d' < Q.degrees.length := by rw [(hu Q hQ).1]; exact hd'
    have hplane := (onSide_iff hu hQ hd' last' ha (Or.inl rfl)).1 hon
    obtain ⟨f, hf, hf1, hr⟩ := hmeet.2 _ (mem_sides.2 ⟨Q, hQ, d', hdQ, last', rfl⟩) hplane
    obtain ⟨P, hP, d, hdP, last, rfl⟩ := mem_sides.1 hf
    obtain ⟨a', c', h1, h2, h3⟩ := at_ hpl P hP
    have hd : d < m := by rw [← (ht P hP).1]; exact hdP
    refine ⟨a', _, c', h1, h2, d, hd, last, (onSide_iff ht hP hd last ha (Or.inr rfl)).2 hf1, And.imp Eq.symm Eq.symm ?_⟩
    obtain ⟨s1, s2⟩ := readings_points hr
    have s3 := readings_centre hr
    rw [hlen ht hP hdP, hlen hu hQ hdQ] at s1 s2 s3
    refine same_face ht hu hP hQ h3 hqc ha hi he hd hd' hf1 hplane (fun w hw => ?_) (fun w hw => ?_) fun k hk => by rw [← s3 k, faceValue_set _ _ _ _ _ _ hk]
    · obtain ⟨w', g1, g2⟩ := s2 w hw
      exact ⟨w', g1, fun k hk => by rw [← g2 k, faceValue_set _ _ _ _ _ _ hk]⟩
    · obtain ⟨w', g1, g2⟩ := s1 w hw
      exact ⟨w', g1, fun k hk => by rw [← g2 k, faceValue_set _ _ _ _ _ _ hk]⟩

/-! ### closures of neighbours -/

theorem closures_getD {resolutions : List ℕ} {c : Char} {cl : List (Option MicroCreate.Side)} (h : MicroCreate.closures resolutions (some c) = some cl) :
    ∃ k < resolutions.length, MicroCreate.closingDim c = some k ∧ ∀ e < resolutions.prod, cl.getD e none = MicroCreate.faceClosure ((digits resolutions e).getD k 0) (resolutions.getD k 0) := by
  unfold MicroCreate.closures at h
  simp only at h
  cases hk : MicroCreate.closingDim c with
  | none => simp [hk] at h
  | some k =>
    rw [hk] at h
    simp only at h
    by_cases hlt : k ≥ resolutions.length
    · rw [if_pos hlt] at h; cases h
    rw [if_neg hlt] at h
    refine ⟨k, by omega, rfl, fun e he => ?_⟩
    have hne : resolutions.map List.range ≠ [] := by
      intro h'
      rw [List.map_eq_nil_iff] at h'
      rw [h'] at hlt
      simp at hlt
    have hlen : (resolutions.map List.range).map List.length = resolutions := by
      rw [List.map_map]
      conv_rhs => rw [← List.map_id resolutions]
      exact List.map_congr_left fun r _ => by simp
    have hloc : MicroCreate.localIndices resolutions = some ((List.range resolutions.prod).map fun r =>
        List.zipWith (fun (l : List ℕ) k => l[k]?) (resolutions.map List.range) (digits resolutions r)) := by
      unfold MicroCreate.localIndices
      rw [Index.cartesian_product_reverse _ hne, ← digits_rows, hlen]
    rw [hloc, Option.map_some, Option.some.injEq] at h
    subst h
    rw [List.map_map, getD_map_range _ _ _ he]
    simp only [Function.comp_apply]
    have hpos : ∀ r ∈ resolutions, 0 < r := by
      intro r hr
      rcases Nat.eq_zero_or_pos r with h0 | h0
      · rw [List.prod_eq_zero (h0 ▸ hr)] at he; omega
      · exact h0
    have hin := digits_inGrid resolutions e hpos
    have hke : k < (digits resolutions e).length := by rw [digits_length]; omega
    have hek := List.Forall₂.get hin (by omega : k < resolutions.length) hke
    simp only [List.get_eq_getElem] at hek
    rw [List.getD_eq_getElem (digits resolutions e) _ hke, List.getD_eq_getElem?_getD, List.getElem?_eq_getElem (by simp [digits_length]; omega), Option.getD_some, List.getElem_zipWith,
      List.getElem_map, List.getElem?_range hek, Option.getD_some]

/-- The closures of neighbouring elements are as C79 asks. -/
theorem closures_neighbours {resolutions : List ℕ} {face : Option Char} {cl : List (Option MicroCreate.Side)} (h : MicroCreate.closures resolutions face = some cl) {e e' axis i : ℕ}
    (he : e < resolutions.prod) (he' : e' < resolutions.prod) (hi : (digits resolutions e)[axis]? = some i) (hn : digits resolutions e' = (digits resolutions e).set axis (i + 1)) :
    Neighbours axis ((cl.getD e none).map (MicroTile.closureName (face.getD ' '))) ((cl.getD e' none).map (MicroTile.closureName (face.getD ' '))) := by
  cases face with
  | none =>
    unfold MicroCreate.closures at h
    simp only [Option.some.injEq] at h
    subst h
    rw [List.getD_eq_getElem _ _ (by simpa using he), List.getD_eq_getElem _ _ (by simpa using he'), List.getElem_replicate, List.getElem_replicate]
    exact Or.inl ⟨Or.inl rfl, Or.inl rfl⟩
  | some c =>
    obtain ⟨k, hk, hdim, hcl⟩ := closures_getD h
    rw [hcl e he, hcl e' he', hn, Option.getD_some]
    have hpos : ∀ r ∈ resolutions, 0 < r := by
      intro r hr
      rcases Nat.eq_zero_or_pos r with h0 | h0
      · rw [List.prod_eq_zero (h0 ▸ hr)] at he; omega
      · exact h0
    obtain ⟨hal, hai⟩ := List.getElem?_eq_some_iff.1 hi
    have hlt : i + 1 < resolutions.getD axis 0 := by
      have hin := digits_inGrid resolutions e' hpos
      rw [hn] at hin
      rw [digits_length] at hal
      have := List.Forall₂.get hin hal (by rw [List.length_set, digits_length]; exact hal)
      simp only [List.get_eq_getElem, List.getElem_set_self] at this
      rwa [List.getD_eq_getElem _ _ hal]
    by_cases hka : k = axis
    · subst hka
      have h1 : (digits resolutions e).getD k 0 = i := by rw [List.getD_eq_getElem _ _ hal, hai]
      have h2 : ((digits resolutions e).set k (i + 1)).getD k 0 = i + 1 := by
        rw [List.getD_eq_getElem _ _ (by rw [List.length_set]; exact hal), List.getElem_set_self]
      rw [h1, h2]
      have h3 : MicroCreate.faceClosure i (resolutions.getD k 0) = none ∨ MicroCreate.faceClosure i (resolutions.getD k 0) = some .lower := by
        unfold MicroCreate.faceClosure
        by_cases h0 : i = 0
        · rw [if_pos h0]; exact Or.inr rfl
        · rw [if_neg h0, if_neg (by omega)]; exact Or.inl rfl
      have h4 : MicroCreate.faceClosure (i + 1) (resolutions.getD k 0) = none ∨ MicroCreate.faceClosure (i + 1) (resolutions.getD k 0) = some .upper := by
        unfold MicroCreate.faceClosure
        rw [if_neg (by omega)]
        by_cases h0 : i + 1 + 1 = resolutions.getD k 0
        · rw [if_pos h0]; exact Or.inr rfl
        · rw [if_neg h0]; exact Or.inl rfl
      have hname : MicroTile.closureName c .lower = ["x_min", "y_min", "z_min"].getD k "" ∧ MicroTile.closureName c .upper = ["x_max", "y_max", "z_max"].getD k "" := by
        unfold MicroCreate.closingDim at hdim
        split at hdim <;> simp only [Option.some.injEq, reduceCtorEq] at hdim <;> subst hdim <;> decide
      refine Or.inl ⟨?_, ?_⟩
      · rcases h3 with h | h <;> rw [h]
        · exact Or.inl rfl
        · exact Or.inr (by rw [Option.map_some, hname.1])
      · rcases h4 with h | h <;> rw [h]
        · exact Or.inl rfl
        · exact Or.inr (by rw [Option.map_some, hname.2])
    · have h1 : ((digits resolutions e).set axis (i + 1)).getD k 0 = (digits resolutions e).getD k 0 := by
        rw [List.getD_eq_getElem?_getD, List.getD_eq_getElem?_getD, List.getElem?_set_ne (Ne.symm hka)]
      rw [h1]
      refine Or.inr ⟨rfl, ?_⟩
      have hname : ∀ s, MicroTile.closureName c s ≠ ["x_min", "y_min", "z_min"].getD axis "" ∧ MicroTile.closureName c s ≠ ["x_max", "y_max", "z_max"].getD axis "" := by
        intro s
        unfold MicroCreate.closingDim at hdim
        match axis, s with
        | 0, .lower | 0, .upper | 1, .lower | 1, .upper | 2, .lower | 2, .upper =>
          split at hdim <;> simp only [Option.some.injEq, reduceCtorEq] at hdim <;> subst hdim <;> first | exact absurd rfl hka | (constructor <;> simp only [List.getD_eq_getElem?_getD] <;> decide)
        | j + 3, s =>
          have h1 : ["x_min", "y_min", "z_min"].getD (j + 3) "" = "" := rfl
          have h2 : ["x_max", "y_max", "z_max"].getD (j + 3) "" = "" := rfl
          rw [h1, h2]
          cases s <;> split at hdim <;> simp only [Option.some.injEq, reduceCtorEq] at hdim <;> decide
      cases MicroCreate.faceClosure ((digits resolutions e).getD k 0) (resolutions.getD k 0) with
      | none => exact ⟨by simp, by simp⟩
      | some s =>
        simp only [Option.map_some, ne_eq, Option.some.injEq]
        exact hname s

/-! ### what was created -/

theorem mapM_some {α β : Type} {f : α → Option β} : ∀ {l : List α} {r : List β}, l.mapM f = some r → ∀ x ∈ l, ∃ y, f x = some y := by
  intro l
  induction l with
  | nil => intro r _ x hx; cases hx
  | cons a l ih =>
    intro r h x hx
    rw [List.mapM_cons] at h
    cases ha : f a with
    | none => simp [ha] at h
    | some y =>
      cases hl : l.mapM f with
      | none => simp [ha, hl] at h
      | some ys =>
        rcases List.mem_cons.1 hx with rfl | hx
        · exact ⟨y, ha⟩
        · exact ih hl x hx

/-- If the microstructure is created, then all its tiles are. -/
theorem accepted {tol : K} {lib : Library K} (x : Settings K) (face : Option Char) (ksw : Bool) (n dim : ℕ) (breaks : List (List K)) (heval : ∀ v ∈ x.evaluationPoints, Spec.Cube n v)
    (h : ∃ pre, prerequisites lib tol ksw x.tiling x.parametrization.isSome x.deformation = some pre ∧ Prepared lib x.deformation n dim breaks x.parametrization.isSome pre)
    {cs : List (Spline K (List K))} (hcs : MicroGeometry.create lib tol x face ksw = some cs) :
    ∃ cl, MicroCreate.closures (Spec.elements breaks) face = some cl ∧ ∀ e < (Spec.elements breaks).prod,
      ∃ t, x.createTile (x.parametrization.map fun f => f (x.evaluationPoints.map (Spec.place breaks (digits (Spec.elements breaks) e)))) (cl.getD e none) = some t := by
  obtain ⟨pre, hpre, hP⟩ := h
  unfold MicroGeometry.create at hcs
  rw [hpre, Option.bind_some, hP.resolutions] at hcs
  cases hcl : MicroCreate.closures (Spec.elements breaks) face with
  | none => rw [hcl] at hcs; simp at hcs
  | some cl =>
    refine ⟨cl, rfl, fun e he => ?_⟩
    rw [hcl, Option.bind_some, Option.map_eq_some_iff] at hcs
    obtain ⟨r, hr, -⟩ := hcs
    have hcll := MicroGeometry.closures_length _ _ _ hcl
    have he0 : e < pre.1.length := by rw [hP.length]; exact he
    obtain ⟨y, hy⟩ := mapM_some hr e (List.mem_range.2 he0)
    rw [List.getElem?_eq_getElem he0, Option.bind_some] at hy
    have htp : MicroGeometry.tileParameters lib x pre.2.1 e =
        some (x.parametrization.map fun f => f (x.evaluationPoints.map (Spec.place breaks (digits (Spec.elements breaks) e)))) := by
      unfold MicroGeometry.tileParameters
      cases hf : x.parametrization with
      | none => rfl
      | some f =>
        obtain ⟨ps, q1, q2, q3⟩ := hP.para (by rw [hf]; rfl)
        simp only [q1, Option.map_some]
        rw [List.getElem?_eq_getElem (by rw [q2]; exact he), Option.map_some]
        congr 3
        exact List.map_congr_left fun v hv => q3 e _ (List.getElem?_eq_getElem (by rw [q2]; exact he)) v (heval v hv)
    rw [htp, Option.bind_some, List.getElem?_eq_getElem (by rw [hcll]; exact he), Option.bind_some] at hy
    rw [List.getD_eq_getElem _ _ (by rw [hcll]; exact he)]
    cases ht : x.createTile (x.parametrization.map fun f => f (x.evaluationPoints.map (Spec.place breaks (digits (Spec.elements breaks) e)))) cl[e] with
    | none => rw [ht] at hy; simp at hy
    | some t => exact ⟨t, rfl⟩

theorem tidy_tilePatch {n m : ℕ} {t : List (Patch K)} (ht : Tidy n m t) {P : Patch K} (hP : P ∈ t) : Spec.TilePatch n (bezier P) := by
  obtain ⟨h1, h2, h3⟩ := ht P hP
  have hv : ValidSpline (bezier P) := by
    refine ⟨by rintro kvs ⟨⟩, ?_, ?_, by rintro ws ⟨⟩⟩
    · intro d hd
      simp only [bezier, directions, List.mem_map] at hd
      obtain ⟨p, _, rfl⟩ := hd
      rintro kv ⟨⟩
    · have : netSize (bezier P) = P.degrees.map (· + 1) := by
        unfold netSize directions bezier
        simp [Function.comp_def, Direction.size]
      rw [this]
      exact h2
  refine ⟨⟨hv, rfl, fun c hc => (h3 c hc).1⟩, rfl, fun u hu => ⟨by simp [MicroGeometry.Spec.image], ?_⟩⟩
  intro x hx
  obtain ⟨k, hk, rfl⟩ := List.mem_map.1 hx
  rw [List.mem_range] at hk
  refine Svg.spline_within_control_points hv (MicroGeometry.inDomain_bezier rfl hu) k ?_
  intro c hc
  have hl : k < c.length := by rw [(h3 c hc).1]; exact hk
  rw [List.getD_eq_getElem _ _ hl]
  exact (h3 c hc).2 _ (List.getElem_mem hl)

/-- The tile class with the given closure, parameters and no sensitivities, as `create` uses it. -/
def usesClass (make : Option String → Option (Mat K) → Option (List (Mat K)) → Option (Tile K)) (face : Option Char) (p : Option (List (List K))) (c : Option MicroCreate.Side) :
    Option (List (Spline K (List K))) := (MicroTile.createTile make face p none c).map Prod.fst

theorem usesClass_eq (make : Option String → Option (Mat K) → Option (List (Mat K)) → Option (Tile K)) (face : Option Char) (p : Option (List (List K))) (c : Option MicroCreate.Side) :
    usesClass make face p c = (make (c.map (MicroTile.closureName (face.getD ' '))) p none).map fun T => T.splines.map bezier := by
  unfold usesClass MicroTile.createTile
  cases make (c.map (MicroTile.closureName (face.getD ' '))) p none with
  | none => rfl
  | some T => rfl

/-- The tiles of a class in the unit cube of dimension `n` whose parameters are related meet. -/
structure Fits (make : Option String → Option (Mat K) → Option (List (Mat K)) → Option (Tile K)) (n m : ℕ) (R : ℕ → Option (Mat K) → Option (Mat K) → Prop) : Prop where
  tidy : ∀ c p T, make c p none = some T → Tidy n m T.splines
  meets : ∀ axis < n, ∀ c c', Neighbours axis c c' → ∀ p q T U, R axis p q → make c p none = some T → make c' q none = some U → Meets T.splines U.splines axis

/-- The tiles of a class with parameters `A` in the unit cube of dimension `n` whose parameters are related meet. -/
structure FitsOn (make : Option String → Option (Mat K) → Option (List (Mat K)) → Option (Tile K)) (n m : ℕ) (A : Option (Mat K) → Prop) (R : ℕ → Option (Mat K) → Option (Mat K) → Prop) : Prop where
  tidy : ∀ c p T, A p → make c p none = some T → Tidy n m T.splines
  meets : ∀ axis < n, ∀ c c', Neighbours axis c c' → ∀ p q T U, A p → A q → R axis p q → make c p none = some T → make c' q none = some U → Meets T.splines U.splines axis

theorem watertight_prepared_on {tol : K} {lib : Library K} (x : Settings K) (face : Option Char) (ksw : Bool) (n m dim dim' : ℕ) (hn : 0 < n) (hdn : x.deformation.degrees.length = n)
    (hC : Spec.Composes x.deformation.weights.isSome lib.compose) (breaks : List (List K)) (hbn : breaks.length = n) (heval : ∀ v ∈ x.evaluationPoints, Spec.Cube n v)
    (h : ∃ pre, prerequisites lib tol ksw x.tiling x.parametrization.isSome x.deformation = some pre ∧ Prepared lib x.deformation n dim breaks x.parametrization.isSome pre)
    {make : Option String → Option (Mat K) → Option (List (Mat K)) → Option (Tile K)} {R : ℕ → Option (Mat K) → Option (Mat K) → Prop} {A : Option (Mat K) → Prop} (hF : FitsOn make n m A R) (hx : x.createTile = usesClass make face)
    (hR : ∀ e e' axis i, (digits (Spec.elements breaks) e)[axis]? = some i → digits (Spec.elements breaks) e' = (digits (Spec.elements breaks) e).set axis (i + 1) →
      R axis (x.parametrization.map fun f => f (x.evaluationPoints.map (Spec.place breaks (digits (Spec.elements breaks) e))))
        (x.parametrization.map fun f => f (x.evaluationPoints.map (Spec.place breaks (digits (Spec.elements breaks) e')))))
    (hA : ∀ pts, A (x.parametrization.map fun f => f pts))
    (hsome : (MicroGeometry.create lib tol x face ksw).isSome) :
    Spec.IsWatertight x n m dim' breaks face (MicroGeometry.create lib tol x face ksw) := by
  obtain ⟨cs, hcs⟩ := Option.isSome_iff_exists.1 hsome
  obtain ⟨cl, hcl, hacc⟩ := accepted x face ksw n dim breaks heval h hcs
  have hT : ∀ e, ∃ T : Tile K, e < (Spec.elements breaks).prod → make ((cl.getD e none).map (MicroTile.closureName (face.getD ' ')))
      (x.parametrization.map fun f => f (x.evaluationPoints.map (Spec.place breaks (digits (Spec.elements breaks) e)))) none = some T := by
    intro e
    by_cases he : e < (Spec.elements breaks).prod
    · obtain ⟨t, ht⟩ := hacc e he
      rw [hx, usesClass_eq, Option.map_eq_some_iff] at ht
      obtain ⟨T, hT, -⟩ := ht
      exact ⟨T, fun _ => hT⟩
    · exact ⟨⟨[], none⟩, fun h => absurd h he⟩
  choose T hT using hT
  have htile : ∀ e < (Spec.elements breaks).prod,
      x.createTile (x.parametrization.map fun f => f (x.evaluationPoints.map (Spec.place breaks (digits (Spec.elements breaks) e)))) (cl.getD e none) = some ((T e).splines.map bezier) := by
    intro e he
    rw [hx, usesClass_eq, hT e he, Option.map_some]
  obtain ⟨placed, hpl1, hpl2⟩ := MicroGeometry.create_prepared x face ksw n dim hn hdn hC breaks heval h cl (fun e => (T e).splines.map bezier) hcl (fun e he => ⟨htile e he, fun t ht => by
    obtain ⟨P, hP, rfl⟩ := List.mem_map.1 ht
    exact tidy_tilePatch (hF.tidy _ _ _ (hA _) (hT e he)) hP⟩)
  refine ⟨cl, fun e => (T e).splines.map bezier, placed, hcl, hpl1, fun e he => ⟨htile e he, hpl2 e he⟩, fun e e' axis i he he' hi hn' => ?_⟩
  have ha : axis < n := by
    have := (List.getElem?_eq_some_iff.1 hi).1
    rwa [digits_length, MicroGeometry.Spec.elements, List.length_map, hbn] at this
  exact continues_of_meets (hF.tidy _ _ _ (hA _) (hT e he)) (hF.tidy _ _ _ (hA _) (hT e' he')) (hF.meets axis ha _ _ (closures_neighbours hcl he he' hi hn') _ _ _ _ (hA _) (hA _) (hR e e' axis i hi hn') (hT e he) (hT e' he'))
    (hpl2 e he) (hpl2 e' he') ha hi hn'

theorem watertight_prepared {tol : K} {lib : Library K} (x : Settings K) (face : Option Char) (ksw : Bool) (n m dim dim' : ℕ) (hn : 0 < n) (hdn : x.deformation.degrees.length = n)
    (hC : Spec.Composes x.deformation.weights.isSome lib.compose) (breaks : List (List K)) (hbn : breaks.length = n) (heval : ∀ v ∈ x.evaluationPoints, Spec.Cube n v)
    (h : ∃ pre, prerequisites lib tol ksw x.tiling x.parametrization.isSome x.deformation = some pre ∧ Prepared lib x.deformation n dim breaks x.parametrization.isSome pre)
    {make : Option String → Option (Mat K) → Option (List (Mat K)) → Option (Tile K)} {R : ℕ → Option (Mat K) → Option (Mat K) → Prop} (hF : Fits make n m R) (hx : x.createTile = usesClass make face)
    (hR : ∀ e e' axis i, (digits (Spec.elements breaks) e)[axis]? = some i → digits (Spec.elements breaks) e' = (digits (Spec.elements breaks) e).set axis (i + 1) →
      R axis (x.parametrization.map fun f => f (x.evaluationPoints.map (Spec.place breaks (digits (Spec.elements breaks) e))))
        (x.parametrization.map fun f => f (x.evaluationPoints.map (Spec.place breaks (digits (Spec.elements breaks) e')))))
    (hsome : (MicroGeometry.create lib tol x face ksw).isSome) :
    Spec.IsWatertight x n m dim' breaks face (MicroGeometry.create lib tol x face ksw) :=
  watertight_prepared_on x face ksw n m dim dim' hn hdn hC breaks hbn heval h (A := fun _ => True) ⟨fun c p T _ => hF.tidy c p T, fun axis ha c c' hn p q T U _ _ => hF.meets axis ha c c' hn p q T U⟩ hx hR
    (fun _ => trivial) hsome

end Splinepy.Watertight
