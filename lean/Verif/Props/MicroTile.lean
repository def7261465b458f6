import Verif.Model.MicroTile
import Verif.Props.MicroSens
import Verif.Props.MacroMatrix
import Verif.Props.SvgView
import Verif.Props.TileDerivatives
import Verif.Props.TileGeometry
import Verif.Props.TileGeometry3D

/-!
C115 for the tile classes of splinepy: the assumptions on the tile class are proved for `Cross2D`, `DoubleLattice`, `HollowCube`, `Cross3D` and `Cross3DLinear`, with their closing tiles.
-/
set_option linter.unusedSectionVars false
namespace Splinepy.MicroTile
open Splinepy.Spec Finset
open Splinepy.Index (Spline)
open Splinepy.MicroGeometry (Library prerequisites Prepared)
open Splinepy.MicroCreate (Slice Side)
open Splinepy.Tiles (Tile Mat Patch)
open Splinepy.Tiles.Spec (bezier shape coord InUnitCube DerivativesCorrect)

/-- Shapes of Bezier patches with `m` parameters and `n` coordinates. -/
def Shaped (n m : ℕ) (sh : List (List ℕ × List ℕ)) : Prop := ∀ q ∈ sh, q.1.length = m ∧ q.2 = List.replicate (q.1.map (· + 1)).prod n

instance (n m : ℕ) (sh : List (List ℕ × List ℕ)) : Decidable (Shaped n m sh) := by unfold Shaped; infer_instance

/-- What C75 and C76 say of a tile class with a fixed closure: the tile does not depend on the sensitivities, all tiles have the same shape and lie in the unit cube, the derivatives are correct. -/
structure Good (make : Option (Mat ℝ) → Option (List (Mat ℝ)) → Option (Tile ℝ)) (sh : List (List ℕ × List ℕ)) : Prop where
  same : ∀ p s T, make (some p) (some s) = some T → ∃ T', make (some p) none = some T' ∧ T'.splines = T.splines
  shaped : ∀ p s T, make (some p) s = some T → shape T.splines = sh
  inside : ∀ p s T, make (some p) s = some T → InUnitCube T.splines
  derivatives : ∀ p s, DerivativesCorrect make p s

theorem netSize_bezier {K : Type} [Field K] [LinearOrder K] (P : Patch K) : netSize (bezier P) = P.degrees.map (· + 1) := by
  unfold netSize directions bezier
  simp [Function.comp_def, Direction.size]

/-- a patch of the right shape is a Bezier spline -/
theorem isBezier {n m : ℕ} {sh : List (List ℕ × List ℕ)} (hsh : Shaped n m sh) {t : List (Patch ℝ)} (ht : shape t = sh) {P : Patch ℝ} (hP : P ∈ t) :
    MicroGeometry.Spec.IsBezier n (bezier P) ∧ (bezier P).weights = none ∧ (bezier P).degrees.length = m := by
  have hq : (P.degrees, P.cps.map List.length) ∈ sh := by rw [← ht]; exact List.mem_map.2 ⟨P, hP, rfl⟩
  obtain ⟨h1, h2⟩ := hsh _ hq
  refine ⟨⟨⟨by rintro kvs ⟨⟩, ?_, ?_, by rintro ws ⟨⟩⟩, rfl, ?_⟩, rfl, h1⟩
  · intro d hd
    simp only [bezier, directions, List.mem_map] at hd
    obtain ⟨p, _, rfl⟩ := hd
    rintro kv ⟨⟩
  · rw [netSize_bezier]
    have := congrArg List.length h2
    rw [List.length_map, List.length_replicate] at this
    exact this
  · intro c hc
    have : c.length ∈ P.cps.map List.length := List.mem_map.2 ⟨c, hc, rfl⟩
    change P.cps.map List.length = _ at h2
    rw [h2] at this
    exact List.eq_of_mem_replicate this

/-- a patch in the unit cube is a tile patch: Bezier splines stay in the convex hull of their control points -/
theorem tilePatch {n m : ℕ} {sh : List (List ℕ × List ℕ)} (hsh : Shaped n m sh) {t : List (Patch ℝ)} (ht : shape t = sh) (hin : InUnitCube t) {P : Patch ℝ} (hP : P ∈ t) :
    MicroGeometry.Spec.TilePatch n (bezier P) ∧ (bezier P).degrees.length = m := by
  obtain ⟨h1, h2, h3⟩ := isBezier hsh ht hP
  refine ⟨⟨h1, h2, fun u hu => ⟨by simp [MicroGeometry.Spec.image], ?_⟩⟩, h3⟩
  intro x hx
  obtain ⟨k, hk, rfl⟩ := List.mem_map.1 hx
  rw [List.mem_range] at hk
  refine Svg.spline_within_control_points h1.valid (MicroGeometry.inDomain_bezier rfl hu) k ?_
  intro c hc
  have hl : k < c.length := by rw [h1.rows c hc]; exact hk
  rw [List.getD_eq_getElem _ _ hl]
  exact hin P hP c hc _ (List.getElem_mem hl)

/-- points of a patch are linear in the coordinates of its control points -/
theorem coordinate_sum {t : List (Patch ℝ)} {i : ℕ} {degs : List ℕ} {lens : List ℕ} (h : (shape t)[i]? = some (degs, lens)) (u : List ℝ) (k : ℕ) :
    MicroSens.Spec.coordinate (t.map bezier) i u k =
      ∑ l ∈ range (degs.map (· + 1)).prod, basisProduct (List.zipWith (fun d x j => bernstein d j 0 1 x) degs u) (digits (degs.map (· + 1)) l) * coord t i l k := by
  unfold shape at h
  rw [List.getElem?_map, Option.map_eq_some_iff] at h
  obtain ⟨P, hP, hs⟩ := h
  obtain ⟨rfl, -⟩ := Prod.mk.inj hs
  unfold MicroSens.Spec.coordinate
  rw [List.getElem?_map, hP, Option.map_some, Option.elim_some, ← MacroMatrix.bezier_value P.degrees (fun l => coord t i l k) u]
  have : ∀ l, (P.cps.getD l []).getD k 0 = coord t i l k := by
    intro l
    unfold coord
    rw [List.getD_eq_getElem?_getD (l := t.map Patch.cps), List.getElem?_map, hP]
    rfl
  unfold point
  simp only [bezier, this]
  rfl

theorem createTile_none (make : Option String → Option (Mat ℝ) → Option (List (Mat ℝ)) → Option (Tile ℝ)) (face : Option Char) (p : Option (Mat ℝ)) (c : Option Side) :
    createTile make face p none c = (make (c.map (closureName (face.getD ' '))) p none).map fun T => (T.splines.map bezier, []) := by
  unfold createTile
  cases make (c.map (closureName (face.getD ' '))) p none with
  | none => rfl
  | some T => rfl

open Classical in
/-- A tile class with the properties of C75 and C76 meets the assumptions of C115, for all parameters and sensitivities that it accepts. -/
theorem tileAt {make : Option String → Option (Mat ℝ) → Option (List (Mat ℝ)) → Option (Tile ℝ)} {face : Option Char} {c : Option Side} {sh : List (List ℕ × List ℕ)}
    (hG : Good (make (c.map (closureName (face.getD ' ')))) sh) {n m : ℕ} (hsh : Shaped n m sh) (p : Mat ℝ) (sens : List (Mat ℝ))
    (hshape : ∀ s ∈ sens, s.map List.length = p.map List.length)
    (hacc : (make (c.map (closureName (face.getD ' '))) (some p) (some (sens.filter fun s => ¬ MicroSens.Spec.Zero s))).isSome) :
    ∃ T D, MicroSens.Spec.TileAt (createTile make face) n m p sens c T D := by
  set mk := make (c.map (closureName (face.getD ' '))) with hmk
  obtain ⟨T, hT⟩ := Option.isSome_iff_exists.1 hacc
  obtain ⟨T', hT', hTs⟩ := hG.same _ _ _ hT
  obtain ⟨ds, hds, hlen, hder⟩ := hG.derivatives _ _ T hT
  set pos : ℕ → ℕ := fun j => ((List.range j).filter fun i => ¬ MicroSens.Spec.Zero (sens.getD i [])).length with hpos
  have hfil : sens.filter (fun s => ¬ MicroSens.Spec.Zero s) = ((List.range sens.length).filter fun j => ¬ MicroSens.Spec.Zero (sens.getD j [])).map fun j => sens.getD j [] := by
    rw [← MicroSens.onSupport_eq, ← MicroSens.support_eq]
    rfl
  have hat : ∀ (j : ℕ) s, sens[j]? = some s → ¬ MicroSens.Spec.Zero s →
      ((List.range sens.length).filter fun j => ¬ MicroSens.Spec.Zero (sens.getD j []))[pos j]? = some j := by
    intro j s hj hz
    obtain ⟨hjl, -⟩ := List.getElem?_eq_some_iff.1 hj
    have hr : List.range sens.length = List.range j ++ j :: (List.range (sens.length - j - 1)).map fun i => j + 1 + i := by
      have h1 : sens.length = j + (1 + (sens.length - j - 1)) := by omega
      conv_lhs => rw [h1, List.range_add, List.range_add]
      simp [Function.comp_def, add_assoc]
    have hjz : ¬ MicroSens.Spec.Zero (sens.getD j []) := by rw [List.getD_eq_getElem?_getD, hj]; exact hz
    rw [hr, List.filter_append, List.getElem?_append_right (le_refl _), Nat.sub_self, List.filter_cons_of_pos (by simpa using hjz)]
    rfl
  have hdlen : ds.length = ((List.range sens.length).filter fun j => ¬ MicroSens.Spec.Zero (sens.getD j [])).length := by rw [hlen, hfil, List.length_map]
  have hslice : ∀ (j : ℕ) s, sens[j]? = some s → ¬ MicroSens.Spec.Zero s → ∃ d, ds[pos j]? = some d ∧ Tiles.Spec.IsDerivative (fun h => mk (some (Tiles.Spec.move p s h)) none) d := by
    intro j s hj hz
    have h1 := hat j s hj hz
    have hl : pos j < ds.length := by rw [hdlen]; exact (List.getElem?_eq_some_iff.1 h1).1
    refine ⟨ds[pos j], List.getElem?_eq_getElem hl, hder (pos j) s _ ?_ (List.getElem?_eq_getElem hl)⟩
    rw [hfil, List.getElem?_map, h1, Option.map_some, List.getD_eq_getElem?_getD, hj]
    rfl
  have hdshape : ∀ (j : ℕ) s d, sens[j]? = some s → ¬ MicroSens.Spec.Zero s → ds[pos j]? = some d → shape d = sh := by
    intro j s d hj hz hd
    obtain ⟨d', hd', T0, hT0, hs0, -⟩ := hslice j s hj hz
    obtain rfl := Option.some.inj (hd'.symm.trans hd)
    rw [← hs0]
    exact hG.shaped _ _ _ hT0
  refine ⟨T.splines.map bezier, fun j => (ds.getD (pos j) []).map bezier, ?_⟩
  constructor
  · unfold createTile
    rw [← hmk, hT, Option.bind_some, hds]
    simp only [Option.some.injEq, Prod.mk.injEq, true_and]
    refine List.ext_getElem (by rw [List.length_map, List.length_map, hdlen]) fun a h1 h2 => ?_
    rw [List.length_map] at h1 h2
    rw [List.getElem_map, List.getElem_map]
    set j := ((List.range sens.length).filter fun j => ¬ MicroSens.Spec.Zero (sens.getD j []))[a] with hj
    have hmem : j ∈ (List.range sens.length).filter fun j => ¬ MicroSens.Spec.Zero (sens.getD j []) := List.getElem_mem h2
    rw [List.mem_filter, List.mem_range] at hmem
    have hjs : sens[j]? = some (sens.getD j []) := by rw [List.getD_eq_getElem _ _ hmem.1]; exact List.getElem?_eq_getElem hmem.1
    have h3 := hat j _ hjs (by simpa using hmem.2)
    have hnd : ((List.range sens.length).filter fun j => ¬ MicroSens.Spec.Zero (sens.getD j [])).Nodup := List.nodup_range.filter _
    have hap : a = pos j := by
      obtain ⟨h4, h5⟩ := List.getElem?_eq_some_iff.1 h3
      exact (hnd.getElem_inj_iff).1 (hj.symm.trans h5.symm)
    rw [← hap, List.getD_eq_getElem _ _ h1]
  · rw [createTile_none, ← hmk, hT', Option.map_some, Option.map_some, hTs]
  · intro t ht
    obtain ⟨P, hP, rfl⟩ := List.mem_map.1 ht
    exact tilePatch hsh (hG.shaped _ _ _ hT) (hG.inside _ _ _ hT) hP
  · exact hshape
  · intro j s hj hz
    obtain ⟨d, hd, -⟩ := hslice j s hj hz
    have hsd := hdshape j s d hj hz hd
    have hg : ds.getD (pos j) [] = d := by rw [List.getD_eq_getElem?_getD, hd]; rfl
    rw [hg]
    refine ⟨?_, fun q hq => ?_⟩
    · have h1 := congrArg List.length hsd
      have h2 := congrArg List.length (hG.shaped _ _ _ hT)
      unfold shape at h1 h2
      rw [List.length_map] at h1 h2
      rw [List.length_map, List.length_map, h1, h2]
    · obtain ⟨P, hP, rfl⟩ := List.mem_map.1 hq
      exact isBezier hsh hsd hP
  · intro s _ _
    refine Filter.Eventually.of_forall fun h r hr => ?_
    rw [createTile_none, ← hmk, Option.map_eq_some_iff] at hr
    obtain ⟨U, hU, rfl⟩ := hr
    refine ⟨?_, fun t ht => ?_⟩
    · have h1 := congrArg List.length (hG.shaped _ _ _ hU)
      have h2 := congrArg List.length (hG.shaped _ _ _ hT)
      unfold shape at h1 h2
      rw [List.length_map] at h1 h2
      rw [List.length_map, List.length_map, h1, h2]
    · obtain ⟨P, hP, rfl⟩ := List.mem_map.1 ht
      exact tilePatch hsh (hG.shaped _ _ _ hU) (hG.inside _ _ _ hU) hP
  · intro j s hj hz i hi u hu k hk
    obtain ⟨d, hd, T0, hT0, hs0, hderiv⟩ := hslice j s hj hz
    have hsd := hdshape j s d hj hz hd
    have hg : ds.getD (pos j) [] = d := by rw [List.getD_eq_getElem?_getD, hd]; rfl
    rw [hg]
    have hil : i < sh.length := by
      have h2 := congrArg List.length (hG.shaped _ _ _ hT)
      unfold shape at h2
      rw [List.length_map] at h2 hi
      omega
    have hshi : sh[i]? = some (sh[i].1, sh[i].2) := List.getElem?_eq_getElem hil
    rw [coordinate_sum (by rw [hsd]; exact hshi) u k]
    have hset : {h | (createTile make face (some (Tiles.Spec.move p s h)) none c).isSome} = {h | (mk (some (Tiles.Spec.move p s h)) none).isSome} := by
      ext h
      rw [Set.mem_setOf_eq, Set.mem_setOf_eq, createTile_none, ← hmk, Option.isSome_map]
    rw [hset]
    have key : HasDerivWithinAt (fun h => ∑ l ∈ range (sh[i].1.map (· + 1)).prod,
        basisProduct (List.zipWith (fun d x j => bernstein d j 0 1 x) sh[i].1 u) (digits (sh[i].1.map (· + 1)) l) * ((mk (some (Tiles.Spec.move p s h)) none).elim 0 fun T => coord T.splines i l k))
        (∑ l ∈ range (sh[i].1.map (· + 1)).prod,
        basisProduct (List.zipWith (fun d x j => bernstein d j 0 1 x) sh[i].1 u) (digits (sh[i].1.map (· + 1)) l) * coord d i l k)
        {h | (mk (some (Tiles.Spec.move p s h)) none).isSome} 0 :=
      HasDerivWithinAt.fun_sum fun l _ => (hderiv i l k).const_mul _
    have hval : ∀ h ∈ {h | (mk (some (Tiles.Spec.move p s h)) none).isSome}, ((createTile make face (some (Tiles.Spec.move p s h)) none c).elim 0 fun r => MicroSens.Spec.coordinate r.1 i u k) =
        ∑ l ∈ range (sh[i].1.map (· + 1)).prod,
        basisProduct (List.zipWith (fun d x j => bernstein d j 0 1 x) sh[i].1 u) (digits (sh[i].1.map (· + 1)) l) * ((mk (some (Tiles.Spec.move p s h)) none).elim 0 fun T => coord T.splines i l k) := by
      intro h hh
      obtain ⟨U, hU⟩ := Option.isSome_iff_exists.1 hh
      rw [createTile_none, ← hmk, hU, Option.map_some, Option.elim_some, coordinate_sum (by rw [hG.shaped _ _ _ hU]; exact hshi) u k]
      rfl
    refine key.congr hval (hval 0 ?_)
    rw [Set.mem_setOf_eq]
    exact Option.isSome_iff_exists.2 ⟨T0, hT0⟩

/-! ### the tile classes -/

/-- from the form of a tile class with a fixed closure, as in C75 -/
theorem good_of {make : Option (Mat ℝ) → Option (List (Mat ℝ)) → Option (Tile ℝ)} {sh : List (List ℕ × List ℕ)} {tile : Mat ℝ → List (Patch ℝ)} {der : Mat ℝ → List (Patch ℝ)}
    (hform : ∀ p s T, make (some p) s = some T → T = Tiles.assemble (tile p) der s) (hnone : ∀ p s T, make (some p) s = some T → ∃ T', make (some p) none = some T')
    (hsh : ∀ p s T, make (some p) s = some T → shape (tile p) = sh)
    (hin : ∀ p s T, make (some p) s = some T → InUnitCube T.splines) (hder : ∀ p s, DerivativesCorrect make p s) : Good make sh where
  same p s T h := by
    obtain ⟨T', hT'⟩ := hnone p _ T h
    refine ⟨T', hT', ?_⟩
    rw [hform _ _ _ h, hform _ _ _ hT']
    rfl
  shaped p s T h := by rw [hform _ _ _ h]; exact hsh _ _ _ h
  inside := hin
  derivatives := hder

theorem good_nothing {make : Option (Mat ℝ) → Option (List (Mat ℝ)) → Option (Tile ℝ)} (h : ∀ p s, make (some p) s = none) : Good make [] where
  same p s T hT := by rw [h] at hT; simp at hT
  shaped p s T hT := by rw [h] at hT; simp at hT
  inside p s T hT := by rw [h] at hT; simp at hT
  derivatives p s T hT := by rw [h] at hT; simp at hT

open Splinepy.Tiles in
/-- Cross2D with all its closing tiles. -/
theorem cross2D_good (expansion bound fill : ℝ) (closure : Option String) : ∃ sh, Shaped 2 2 sh ∧ Good (createCross2D expansion bound fill closure) sh := by
  cases closure with
  | none =>
    refine ⟨shape (cross2D (0 : ℚ) 0 0 0 0 0 0), by decide +kernel, good_of (tile := cross2DTile expansion) (der := cross2DDerivative expansion) ?_ ?_ ?_
      (fun p s T => cross2D_in_unit_square expansion bound fill none p s T) (cross2D_derivatives expansion bound fill)⟩
    · intro p s T h
      simp only [createCross2D, Option.getD_some, Option.ite_none_right_eq_some, Option.some.injEq] at h
      exact h.2.symm
    · intro p s T h
      simp only [createCross2D, Option.getD_some, Option.ite_none_right_eq_some, Bool.and_eq_true, Option.some.injEq] at h ⊢
      exact ⟨_, ⟨h.1.1, rfl⟩, rfl⟩
    · intro p s T _
      rfl
  | some closure =>
    by_cases hc : closure = "x_min" ∨ closure = "x_max" ∨ closure = "y_min" ∨ closure = "y_max"
    · refine ⟨shape ((cross2DCloseBranch closure (0 : ℚ) 0 0 0 0 0 0 0 0 []).getD []), by rcases hc with rfl | rfl | rfl | rfl <;> decide +kernel,
        good_of (tile := fun p => (cross2DCloseTile closure bound fill p).getD []) (der := fun d => (cross2DCloseDerivative closure d).getD []) ?_ ?_ ?_
        (fun p s T => cross2D_in_unit_square expansion bound fill (some closure) p s T) (cross2D_closing_derivatives expansion bound fill closure)⟩
      · intro p s T h
        simp only [createCross2D, cross2DClosing, Option.getD_some, Option.ite_none_right_eq_some, Bool.and_eq_true] at h
        cases ht : cross2DCloseTile closure bound fill p with
        | none => simp [ht] at h
        | some t => simpa [ht] using h.2.2.symm
      · intro p s T h
        simp only [createCross2D, cross2DClosing, Option.getD_some, Option.ite_none_right_eq_some, Bool.and_eq_true] at h ⊢
        cases ht : cross2DCloseTile closure bound fill p with
        | none => simp [ht] at h
        | some t => exact ⟨assemble t (fun d => (cross2DCloseDerivative closure d).getD []) none, ⟨h.1.1, rfl⟩, ⟨h.2.1.1, rfl⟩, rfl⟩
      · intro p s T _
        rcases hc with rfl | rfl | rfl | rfl <;> rfl
    · push Not at hc
      refine ⟨[], by decide, good_nothing fun p s => ?_⟩
      simp [createCross2D, cross2DClosing, cross2DCloseTile, cross2DCloseBranch, hc.1, hc.2.1, hc.2.2.1, hc.2.2.2]

open Splinepy.Tiles in
/-- DoubleLattice. -/
theorem double_lattice_good (sqrt2 contact : ℝ) (hs : 0 < sqrt2) (closure : Option String) : ∃ sh, Shaped 2 2 sh ∧ Good (createDoubleLattice sqrt2 contact closure) sh := by
  refine ⟨shape (doubleLattice (0 : ℚ) 0 0 0 0 0 0 0 0 0 0), by decide +kernel, good_of (tile := doubleLatticeTile sqrt2 contact (1 / 2) 1) (der := doubleLatticeTile sqrt2 0 0 0) ?_ ?_ ?_
    (fun p s T => double_lattice_in_unit_square sqrt2 contact hs closure p s T) (double_lattice_derivatives sqrt2 contact closure)⟩
  · intro p s T h
    simp only [createDoubleLattice, Option.getD_some, Option.ite_none_right_eq_some, Option.some.injEq] at h
    exact h.2.symm
  · intro p s T h
    simp only [createDoubleLattice, Option.getD_some, Option.ite_none_right_eq_some, Bool.and_eq_true, Option.some.injEq] at h ⊢
    exact ⟨_, ⟨h.1.1, rfl⟩, rfl⟩
  · intro p s T _
    rfl

open Splinepy.Tiles in
/-- HollowCube. -/
theorem hollow_cube_good (closure : Option String) : ∃ sh, Shaped 3 3 sh ∧ Good (createHollowCube closure) sh := by
  refine ⟨shape (hollowCube (0 : ℚ) 0 0 0 0 0 0 0 0), by decide +kernel, good_of (tile := hollowCubeTile 1) (der := hollowCubeTile 0) ?_ ?_ ?_
    (fun p s T => hollow_cube_in_unit_cube closure p s T) (hollow_cube_derivatives closure)⟩
  · intro p s T h
    simp only [createHollowCube, Option.getD_some, Option.ite_none_right_eq_some, Option.some.injEq] at h
    exact h.2.symm
  · intro p s T h
    simp only [createHollowCube, Option.getD_some, Option.ite_none_right_eq_some, Bool.and_eq_true, Option.some.injEq] at h ⊢
    exact ⟨_, ⟨h.1.1, rfl⟩, rfl⟩
  · intro p s T _
    rfl

open Splinepy.Tiles in
/-- Cross3D with its closing tiles. -/
theorem cross3D_good (expansion bound fill : ℝ) (closure : Option String) : ∃ sh, Shaped 3 3 sh ∧ Good (createCross3D expansion bound fill closure) sh := by
  cases closure with
  | none =>
    refine ⟨shape (cross3D (0 : ℚ) 0 0 0 0 0 0 0 0), by decide +kernel, good_of (tile := cross3DTile expansion) (der := cross3DDerivative expansion) ?_ ?_ ?_
      (fun p s T => cross3D_in_unit_cube expansion bound fill none p s T) (cross3D_derivatives expansion bound fill)⟩
    · intro p s T h
      simp only [createCross3D, Option.getD_some, Option.ite_none_right_eq_some, Option.some.injEq] at h
      exact h.2.symm
    · intro p s T h
      simp only [createCross3D, Option.getD_some, Option.ite_none_right_eq_some, Bool.and_eq_true, Option.some.injEq] at h ⊢
      exact ⟨_, ⟨h.1.1, rfl⟩, rfl⟩
    · intro p s T _
      rfl
  | some closure =>
    by_cases hc : closure = "z_min" ∨ closure = "z_max"
    · refine ⟨shape ((cross3DCloseBranch closure (closeZeros cross3DCloseZMin) (closeZeros cross3DCloseZMax) ([] : Mat ℚ)).getD []), by rcases hc with rfl | rfl <;> decide +kernel,
        good_of (tile := fun p => (cross3DCloseBranch closure (closeValues cross3DCloseZMin bound fill) (closeValues cross3DCloseZMax bound fill) p).getD [])
        (der := fun d => (cross3DCloseBranch closure (closeZeros cross3DCloseZMinDerivative) (closeZeros cross3DCloseZMaxDerivative) d).getD []) ?_ ?_ ?_
        (fun p s T => cross3D_in_unit_cube expansion bound fill (some closure) p s T) (cross3D_closing_derivatives expansion bound fill closure)⟩
      · intro p s T h
        simp only [createCross3D, cross3DClosing, Option.getD_some, Option.ite_none_right_eq_some, Bool.and_eq_true] at h
        cases ht : cross3DCloseBranch closure (closeValues cross3DCloseZMin bound fill) (closeValues cross3DCloseZMax bound fill) p with
        | none => simp [ht] at h
        | some t => simpa [ht] using h.2.2.symm
      · intro p s T h
        simp only [createCross3D, cross3DClosing, Option.getD_some, Option.ite_none_right_eq_some, Bool.and_eq_true] at h ⊢
        cases ht : cross3DCloseBranch closure (closeValues cross3DCloseZMin bound fill) (closeValues cross3DCloseZMax bound fill) p with
        | none => simp [ht] at h
        | some t => exact ⟨_, ⟨h.1.1, rfl⟩, ⟨⟨⟨h.2.1.1.1.1, rfl⟩, h.2.1.1.2⟩, h.2.1.2⟩, rfl⟩
      · intro p s T _
        rcases hc with rfl | rfl <;> rfl
    · push Not at hc
      refine ⟨[], by decide, good_nothing fun p s => ?_⟩
      simp [createCross3D, cross3DClosing, cross3DCloseBranch, hc.1, hc.2]

open Splinepy.Tiles in
/-- Cross3DLinear with its closing tiles. -/
theorem cross3D_linear_good (expansion bound fill : ℝ) (closure : Option String) : ∃ sh, Shaped 3 3 sh ∧ Good (createCross3DLinear expansion bound fill closure) sh := by
  cases closure with
  | none =>
    refine ⟨shape (cross3DLinear (0 : ℚ) 0 0 0 0 0 0 0), by decide +kernel, good_of (tile := cross3DLinearTile expansion (1 / 2)) (der := cross3DLinearTile expansion 0) ?_ ?_ ?_
      (fun p s T => cross3D_linear_in_unit_cube expansion bound fill none p s T) (cross3D_linear_derivatives expansion bound fill)⟩
    · intro p s T h
      simp only [createCross3DLinear, Option.getD_some, Option.ite_none_right_eq_some, Option.some.injEq] at h
      exact h.2.symm
    · intro p s T h
      simp only [createCross3DLinear, Option.getD_some, Option.ite_none_right_eq_some, Bool.and_eq_true, Option.some.injEq] at h ⊢
      exact ⟨_, ⟨h.1.1, rfl⟩, rfl⟩
    · intro p s T _
      rfl
  | some closure =>
    by_cases hc : closure = "z_min" ∨ closure = "z_max"
    · refine ⟨shape ((cross3DCloseBranch closure (closeZeros cross3DLinearCloseZMin) (closeZeros cross3DLinearCloseZMax) ([] : Mat ℚ)).getD []), by rcases hc with rfl | rfl <;> decide +kernel,
        good_of (tile := fun p => (cross3DCloseBranch closure (closeValues cross3DLinearCloseZMin bound fill) (closeValues cross3DLinearCloseZMax bound fill) p).getD [])
        (der := fun d => (cross3DCloseBranch closure (closeZeros cross3DLinearCloseZMinDerivative) (closeZeros cross3DLinearCloseZMaxDerivative) d).getD []) ?_ ?_ ?_
        (fun p s T => cross3D_linear_in_unit_cube expansion bound fill (some closure) p s T) (cross3D_linear_closing_derivatives expansion bound fill closure)⟩
      · intro p s T h
        simp only [createCross3DLinear, cross3DLinearClosing, Option.getD_some, Option.ite_none_right_eq_some, Bool.and_eq_true] at h
        cases ht : cross3DCloseBranch closure (closeValues cross3DLinearCloseZMin bound fill) (closeValues cross3DLinearCloseZMax bound fill) p with
        | none => simp [ht] at h
        | some t => simpa [ht] using h.2.2.symm
      · intro p s T h
        simp only [createCross3DLinear, cross3DLinearClosing, Option.getD_some, Option.ite_none_right_eq_some, Bool.and_eq_true] at h ⊢
        cases ht : cross3DCloseBranch closure (closeValues cross3DLinearCloseZMin bound fill) (closeValues cross3DLinearCloseZMax bound fill) p with
        | none => simp [ht] at h
        | some t => exact ⟨_, ⟨h.1.1, rfl⟩, ⟨⟨⟨h.2.1.1.1.1, rfl⟩, h.2.1.1.2⟩, h.2.1.2⟩, rfl⟩
      · intro p s T _
        rcases hc with rfl | rfl <;> rfl
    · push Not at hc
      refine ⟨[], by decide, good_nothing fun p s => ?_⟩
      simp [createCross3DLinear, cross3DLinearClosing, cross3DCloseBranch, hc.1, hc.2]

/-! ### microstructures made of the tile classes -/

open Classical in
/-- The tile class accepts the parameters and the sensitivities of the design variables, as they are asked for, in all elements; all sensitivities have the shape of the parameters and the number of
design variables is everywhere the same. -/
def Spec.Accepts (make : Option String → Option (Mat ℝ) → Option (List (Mat ℝ)) → Option (Tile ℝ)) (face : Option Char) (x : MicroSens.Settings ℝ) (f : List (List ℝ) → List (List ℝ))
    (g : List (List ℝ) → List (Slice ℝ)) (breaks : List (List ℝ)) : Prop :=
  ∃ closures, MicroCreate.closures (MicroGeometry.Spec.elements breaks) face = some closures ∧
    ∀ e < (MicroGeometry.Spec.elements breaks).prod,
      (g (MicroSens.Spec.places x breaks e)).length = (g x.evaluationPoints).length ∧
      (∀ s ∈ g (MicroSens.Spec.places x breaks e), s.map List.length = (f (MicroSens.Spec.places x breaks e)).map List.length) ∧
      (make ((closures.getD e none).map (closureName (face.getD ' '))) (some (f (MicroSens.Spec.places x breaks e)))
        (some ((g (MicroSens.Spec.places x breaks e)).filter fun s => ¬ MicroSens.Spec.Zero s))).isSome

/-- C115 for a tile class with the properties of C75 and C76, knot-span-wise tiling. -/
theorem tiles_design_fields {make : Option String → Option (Mat ℝ) → Option (List (Mat ℝ)) → Option (Tile ℝ)} {m : ℕ} {tol : ℝ} (ht : 0 < tol) {lib : Library ℝ}
    (hL : MicroGeometry.Spec.Contract tol (BezierSpline.Clamped tol) lib) (hC : MicroGeometry.Spec.Composes false lib.compose)
    {ops : BezierAlgebra.Operations ℝ} (hO : BezierAlgebra.Spec.Correct ops BezierAlgebra.Spec.Polynomial) {maxDim : ℕ} (x : MicroSens.Settings ℝ) (face : Option Char) (dim : ℕ) (hm1 : 1 ≤ m) (hm2 : m ≤ maxDim)
    (hs : ValidSpline x.deformation) (hdim : ∀ P ∈ x.deformation.controlPoints, P.length = dim) (hw : x.deformation.weights = none)
    (ds : List (KnotInsertion.Dim ℝ)) (tiles : List ℕ) (hne : ds ≠ []) (hlen : tiles.length = ds.length) (htl : x.tiling = tiles.map Int.ofNat)
    (hon : BezierSpline.On (Create.withKnotVectors x.deformation) ds) (hd : List.Forall₂ (fun d (t : ℕ) => 1 ≤ t ∧ d.Valid ((t : ℝ) * tol)) ds tiles)
    (hcont : ∀ d ∈ ds, ∀ g ∈ d.inner, g.2 ≤ d.degree) (heval : ∀ v ∈ x.evaluationPoints, MicroGeometry.Spec.Cube ds.length v)
    (f : List (List ℝ) → List (List ℝ)) (g : List (List ℝ) → List (Slice ℝ)) (hf : x.parametrization = some f) (hg : x.sensitivity = some g)
    (hmake : x.createTile = createTile make face) (hgood : ∀ closure, ∃ sh, Shaped ds.length m sh ∧ Good (make closure) sh)
    (hacc : Spec.Accepts make face x f g (List.zipWith (fun d t => Micro.Spec.subdivide d.uniqueKnots fun _ => t) ds tiles)) :
    MicroSens.Spec.HasDesignFields (fun x => MicroSens.create lib (BezierAlgebra.compositionDerivative ops maxDim) tol x face true) x f g m := by
  obtain ⟨closures, hcl, hacc⟩ := hacc
  refine MicroSens.design_fields_span_wise ht hL hC hO x face dim m hm1 hm2 hs hdim hw ds tiles hne hlen htl hon hd hcont heval f g hf hg _ rfl closures hcl (fun e he => (hacc e he).1) fun e he => ?_
  rw [hmake]
  obtain ⟨sh, h1, h2⟩ := hgood ((closures.getD e none).map (closureName (face.getD ' ')))
  exact tileAt h2 h1 _ _ (hacc e he).2.1 (hacc e he).2.2

/-- C115 for microstructures made of Cross2D tiles. -/
theorem cross2D_design_fields (expansion bound fill : ℝ) {tol : ℝ} (ht : 0 < tol) {lib : Library ℝ}
    (hL : MicroGeometry.Spec.Contract tol (BezierSpline.Clamped tol) lib) (hC : MicroGeometry.Spec.Composes false lib.compose)
    {ops : BezierAlgebra.Operations ℝ} (hO : BezierAlgebra.Spec.Correct ops BezierAlgebra.Spec.Polynomial) (x : MicroSens.Settings ℝ) (face : Option Char) (dim : ℕ)
    (hs : ValidSpline x.deformation) (hdim : ∀ P ∈ x.deformation.controlPoints, P.length = dim) (hw : x.deformation.weights = none)
    (ds : List (KnotInsertion.Dim ℝ)) (tiles : List ℕ) (hn : ds.length = 2) (hlen : tiles.length = ds.length) (htl : x.tiling = tiles.map Int.ofNat)
    (hon : BezierSpline.On (Create.withKnotVectors x.deformation) ds) (hd : List.Forall₂ (fun d (t : ℕ) => 1 ≤ t ∧ d.Valid ((t : ℝ) * tol)) ds tiles)
    (hcont : ∀ d ∈ ds, ∀ g ∈ d.inner, g.2 ≤ d.degree) (heval : ∀ v ∈ x.evaluationPoints, MicroGeometry.Spec.Cube ds.length v)
    (f : List (List ℝ) → List (List ℝ)) (g : List (List ℝ) → List (Slice ℝ)) (hf : x.parametrization = some f) (hg : x.sensitivity = some g)
    (hmake : x.createTile = createTile (Tiles.createCross2D expansion bound fill) face)
    (hacc : Spec.Accepts (Tiles.createCross2D expansion bound fill) face x f g (List.zipWith (fun d t => Micro.Spec.subdivide d.uniqueKnots fun _ => t) ds tiles)) :
    MicroSens.Spec.HasDesignFields (fun x => MicroSens.create lib (BezierAlgebra.compositionDerivative ops 3) tol x face true) x f g 2 :=
  tiles_design_fields ht hL hC hO x face dim (by decide) (by decide) hs hdim hw ds tiles (by rintro rfl; simp at hn) hlen htl hon hd hcont heval f g hf hg hmake
    (by rw [hn]; exact cross2D_good expansion bound fill) hacc

/-- C115 for microstructures made of DoubleLattice tiles. -/
theorem double_lattice_design_fields (sqrt2 contact : ℝ) (hs2 : 0 < sqrt2) {tol : ℝ} (ht : 0 < tol) {lib : Library ℝ}
    (hL : MicroGeometry.Spec.Contract tol (BezierSpline.Clamped tol) lib) (hC : MicroGeometry.Spec.Composes false lib.compose)
    {ops : BezierAlgebra.Operations ℝ} (hO : BezierAlgebra.Spec.Correct ops BezierAlgebra.Spec.Polynomial) (x : MicroSens.Settings ℝ) (face : Option Char) (dim : ℕ)
    (hs : ValidSpline x.deformation) (hdim : ∀ P ∈ x.deformation.controlPoints, P.length = dim) (hw : x.deformation.weights = none)
    (ds : List (KnotInsertion.Dim ℝ)) (tiles : List ℕ) (hn : ds.length = 2) (hlen : tiles.length = ds.length) (htl : x.tiling = tiles.map Int.ofNat)
    (hon : BezierSpline.On (Create.withKnotVectors x.deformation) ds) (hd : List.Forall₂ (fun d (t : ℕ) => 1 ≤ t ∧ d.Valid ((t : ℝ) * tol)) ds tiles)
    (hcont : ∀ d ∈ ds, ∀ g ∈ d.inner, g.2 ≤ d.degree) (heval : ∀ v ∈ x.evaluationPoints, MicroGeometry.Spec.Cube ds.length v)
    (f : List (List ℝ) → List (List ℝ)) (g : List (List ℝ) → List (Slice ℝ)) (hf : x.parametrization = some f) (hg : x.sensitivity = some g)
    (hmake : x.createTile = createTile (Tiles.createDoubleLattice sqrt2 contact) face)
    (hacc : Spec.Accepts (Tiles.createDoubleLattice sqrt2 contact) face x f g (List.zipWith (fun d t => Micro.Spec.subdivide d.uniqueKnots fun _ => t) ds tiles)) :
    MicroSens.Spec.HasDesignFields (fun x => MicroSens.create lib (BezierAlgebra.compositionDerivative ops 3) tol x face true) x f g 2 :=
  tiles_design_fields ht hL hC hO x face dim (by decide) (by decide) hs hdim hw ds tiles (by rintro rfl; simp at hn) hlen htl hon hd hcont heval f g hf hg hmake
    (by rw [hn]; exact double_lattice_good sqrt2 contact hs2) hacc

/-- C115 for microstructures made of HollowCube tiles. -/
theorem hollow_cube_design_fields  {tol : ℝ} (ht : 0 < tol) {lib : Library ℝ}
    (hL : MicroGeometry.Spec.Contract tol (BezierSpline.Clamped tol) lib) (hC : MicroGeometry.Spec.Composes false lib.compose)
    {ops : BezierAlgebra.Operations ℝ} (hO : BezierAlgebra.Spec.Correct ops BezierAlgebra.Spec.Polynomial) (x : MicroSens.Settings ℝ) (face : Option Char) (dim : ℕ)
    (hs : ValidSpline x.deformation) (hdim : ∀ P ∈ x.deformation.controlPoints, P.length = dim) (hw : x.deformation.weights = none)
    (ds : List (KnotInsertion.Dim ℝ)) (tiles : List ℕ) (hn : ds.length = 3) (hlen : tiles.length = ds.length) (htl : x.tiling = tiles.map Int.ofNat)
    (hon : BezierSpline.On (Create.withKnotVectors x.deformation) ds) (hd : List.Forall₂ (fun d (t : ℕ) => 1 ≤ t ∧ d.Valid ((t : ℝ) * tol)) ds tiles)
    (hcont : ∀ d ∈ ds, ∀ g ∈ d.inner, g.2 ≤ d.degree) (heval : ∀ v ∈ x.evaluationPoints, MicroGeometry.Spec.Cube ds.length v)
    (f : List (List ℝ) → List (List ℝ)) (g : List (List ℝ) → List (Slice ℝ)) (hf : x.parametrization = some f) (hg : x.sensitivity = some g)
    (hmake : x.createTile = createTile (Tiles.createHollowCube) face)
    (hacc : Spec.Accepts (Tiles.createHollowCube) face x f g (List.zipWith (fun d t => Micro.Spec.subdivide d.uniqueKnots fun _ => t) ds tiles)) :
    MicroSens.Spec.HasDesignFields (fun x => MicroSens.create lib (BezierAlgebra.compositionDerivative ops 3) tol x face true) x f g 3 :=
  tiles_design_fields ht hL hC hO x face dim (by decide) (by decide) hs hdim hw ds tiles (by rintro rfl; simp at hn) hlen htl hon hd hcont heval f g hf hg hmake
    (by rw [hn]; exact hollow_cube_good) hacc

/-- C115 for microstructures made of Cross3D tiles. -/
theorem cross3D_design_fields (expansion bound fill : ℝ) {tol : ℝ} (ht : 0 < tol) {lib : Library ℝ}
    (hL : MicroGeometry.Spec.Contract tol (BezierSpline.Clamped tol) lib) (hC : MicroGeometry.Spec.Composes false lib.compose)
    {ops : BezierAlgebra.Operations ℝ} (hO : BezierAlgebra.Spec.Correct ops BezierAlgebra.Spec.Polynomial) (x : MicroSens.Settings ℝ) (face : Option Char) (dim : ℕ)
    (hs : ValidSpline x.deformation) (hdim : ∀ P ∈ x.deformation.controlPoints, P.length = dim) (hw : x.deformation.weights = none)
    (ds : List (KnotInsertion.Dim ℝ)) (tiles : List ℕ) (hn : ds.length = 3) (hlen : tiles.length = ds.length) (htl : x.tiling = tiles.map Int.ofNat)
    (hon : BezierSpline.On (Create.withKnotVectors x.deformation) ds) (hd : List.Forall₂ (fun d (t : ℕ) => 1 ≤ t ∧ d.Valid ((t : ℝ) * tol)) ds tiles)
    (hcont : ∀ d ∈ ds, ∀ g ∈ d.inner, g.2 ≤ d.degree) (heval : ∀ v ∈ x.evaluationPoints, MicroGeometry.Spec.Cube ds.length v)
    (f : List (List ℝ) → List (List ℝ)) (g : List (List ℝ) → List (Slice ℝ)) (hf : x.parametrization = some f) (hg : x.sensitivity = some g)
    (hmake : x.createTile = createTile (Tiles.createCross3D expansion bound fill) face)
    (hacc : Spec.Accepts (Tiles.createCross3D expansion bound fill) face x f g (List.zipWith (fun d t => Micro.Spec.subdivide d.uniqueKnots fun _ => t) ds tiles)) :
    MicroSens.Spec.HasDesignFields (fun x => MicroSens.create lib (BezierAlgebra.compositionDerivative ops 3) tol x face true) x f g 3 :=
  tiles_design_fields ht hL hC hO x face dim (by decide) (by decide) hs hdim hw ds tiles (by rintro rfl; simp at hn) hlen htl hon hd hcont heval f g hf hg hmake
    (by rw [hn]; exact cross3D_good expansion bound fill) hacc

/-- C115 for microstructures made of Cross3DLinear tiles. -/
theorem cross3D_linear_design_fields (expansion bound fill : ℝ) {tol : ℝ} (ht : 0 < tol) {lib : Library ℝ}
    (hL : MicroGeometry.Spec.Contract tol (BezierSpline.Clamped tol) lib) (hC : MicroGeometry.Spec.Composes false lib.compose)
    {ops : BezierAlgebra.Operations ℝ} (hO : BezierAlgebra.Spec.Correct ops BezierAlgebra.Spec.Polynomial) (x : MicroSens.Settings ℝ) (face : Option Char) (dim : ℕ)
    (hs : ValidSpline x.deformation) (hdim : ∀ P ∈ x.deformation.controlPoints, P.length = dim) (hw : x.deformation.weights = none)
    (ds : List (KnotInsertion.Dim ℝ)) (tiles : List ℕ) (hn : ds.length = 3) (hlen : tiles.length = ds.length) (htl : x.tiling = tiles.map Int.ofNat)
    (hon : BezierSpline.On (Create.withKnotVectors x.deformation) ds) (hd : List.Forall₂ (fun d (t : ℕ) => 1 ≤ t ∧ d.Valid ((t : ℝ) * tol)) ds tiles)
    (hcont : ∀ d ∈ ds, ∀ g ∈ d.inner, g.2 ≤ d.degree) (heval : ∀ v ∈ x.evaluationPoints, MicroGeometry.Spec.Cube ds.length v)
    (f : List (List ℝ) → List (List ℝ)) (g : List (List ℝ) → List (Slice ℝ)) (hf : x.parametrization = some f) (hg : x.sensitivity = some g)
    (hmake : x.createTile = createTile (Tiles.createCross3DLinear expansion bound fill) face)
    (hacc : Spec.Accepts (Tiles.createCross3DLinear expansion bound fill) face x f g (List.zipWith (fun d t => Micro.Spec.subdivide d.uniqueKnots fun _ => t) ds tiles)) :
    MicroSens.Spec.HasDesignFields (fun x => MicroSens.create lib (BezierAlgebra.compositionDerivative ops 3) tol x face true) x f g 3 :=
  tiles_design_fields ht hL hC hO x face dim (by decide) (by decide) hs hdim hw ds tiles (by rintro rfl; simp at hn) hlen htl hon hd hcont heval f g hf hg hmake
    (by rw [hn]; exact cross3D_linear_good expansion bound fill) hacc

/-! ### a concrete case -/

/-- a bilinear deformation function -/
noncomputable def samplePlate : Spline ℝ (List ℝ) := ⟨[1, 1], none, none, [[0, 0], [2, 0], [0, 1], [3, 2]]⟩

/-- Cross2D tiles, two in the first direction, closed there; the radius grows with the first coordinate. The first design variable changes this growth, the second one changes nothing. -/
noncomputable def sampleCross : MicroSens.Settings ℝ where
  deformation := samplePlate
  tiling := [2, 1]
  parametrization := some fun pos => pos.map fun q => [1 / 5 + q.getD 0 0 / 10]
  sensitivity := some fun pos => [pos.map fun q => [q.getD 0 0], pos.map fun _ => [0]]
  evaluationPoints := [[0, 1 / 2], [1, 1 / 2], [1 / 2, 0], [1 / 2, 1]]
  createTile := createTile (Tiles.createCross2D 1 (1 / 10) (1 / 2)) (some 'x')

theorem cross2D_design_fields_sample : MicroSens.Spec.HasDesignFields (fun x => MicroSens.create ⟨MicroGeometry.someInsertAll (1 / 1000), BezierSpline.someInsert (1 / 1000), BezierSpline.missing,
      BezierSpline.runs, fun a b => some (BezierAlgebra.exact.compose a b), MicroGeometry.exactEvaluate⟩ (BezierAlgebra.compositionDerivative BezierAlgebra.exact 3) (1 / 1000) x (some 'x') true)
    sampleCross (fun pos => pos.map fun q => [1 / 5 + q.getD 0 0 / 10]) (fun pos => [pos.map fun q => [q.getD 0 0], pos.map fun _ => [0]]) 2 := by
  have hval : ValidSpline samplePlate := by
    refine ⟨by rintro kvs ⟨⟩, ?_, by simp [samplePlate, netSize, directions, Direction.size], by rintro ws ⟨⟩⟩
    intro d hd
    simp only [directions, samplePlate, List.mem_map] at hd
    obtain ⟨p, _, rfl⟩ := hd
    rintro kv ⟨⟩
  have hbr : List.zipWith (fun (d : KnotInsertion.Dim ℝ) t => Micro.Spec.subdivide d.uniqueKnots fun _ => t) [(⟨1, 0, [], 1⟩ : KnotInsertion.Dim ℝ), ⟨1, 0, [], 1⟩] [2, 1] =
      [[0, 1 / 2, 1], [0, 1]] := by
    have hu : (⟨1, 0, [], 1⟩ : KnotInsertion.Dim ℝ).uniqueKnots = [0, 1] := rfl
    have hr2 : List.range 2 = [0, 1] := rfl
    rw [List.zipWith_cons_cons, List.zipWith_cons_cons, List.zipWith_nil_left, hu]
    unfold Micro.Spec.subdivide
    simp [hr2]
  have hel : MicroGeometry.Spec.elements [[(0 : ℝ), 1 / 2, 1], [0, 1]] = [2, 1] := rfl
  refine cross2D_design_fields 1 (1 / 10) (1 / 2) (tol := (1 / 1000 : ℝ)) (by norm_num) (MicroGeometry.contract_exists (by norm_num) fun a b => some (BezierAlgebra.exact.compose a b))
    MicroGeometry.composes_exists BezierAlgebra.operations_exist sampleCross (some 'x') 2 hval (by simp [sampleCross, samplePlate]) rfl [⟨1, 0, [], 1⟩, ⟨1, 0, [], 1⟩] [2, 1] rfl rfl rfl
    ⟨rfl, rfl⟩ (by
      refine List.Forall₂.cons ⟨by norm_num, by norm_num, by simp, ?_⟩ (List.Forall₂.cons ⟨by norm_num, by norm_num, by simp, ?_⟩ List.Forall₂.nil)
      all_goals
        simp [KnotInsertion.Dim.groups]
        norm_num) (by simp) (by
      simp [sampleCross, MicroGeometry.Spec.Cube]
      norm_num) _ _ rfl rfl rfl ?_
  rw [hbr]
  refine ⟨[some .lower, some .upper], by rw [hel]; rfl, ?_⟩
  rw [hel]
  intro e he
  have he2 : e < 2 := by simpa using he
  refine ⟨rfl, ?_, ?_⟩
  · intro s hs
    simp only [List.mem_cons, List.not_mem_nil, or_false] at hs
    rcases hs with rfl | rfl <;> simp [Function.comp_def]
  · have hpl : MicroSens.Spec.places sampleCross [[(0 : ℝ), 1 / 2, 1], [0, 1]] e = [[(e : ℝ) / 2, 1 / 2], [((e : ℝ) + 1) / 2, 1 / 2], [(2 * (e : ℝ) + 1) / 4, 0], [(2 * (e : ℝ) + 1) / 4, 1]] := by
      unfold MicroSens.Spec.places
      rw [hel]
      obtain rfl | rfl : e = 0 ∨ e = 1 := by omega
      all_goals
        simp [sampleCross, MicroGeometry.Spec.place, digits]
        try norm_num
    have hz : ¬ MicroSens.Spec.Zero (List.map (fun q : List ℝ => [q.getD 0 0]) (MicroSens.Spec.places sampleCross [[(0 : ℝ), 1 / 2, 1], [0, 1]] e)) := by
      rw [hpl]
      intro h
      have := h [((e : ℝ) + 1) / 2] (by simp) _ (List.mem_singleton.2 rfl)
      have he0 : (0 : ℝ) ≤ e := Nat.cast_nonneg e
      linarith
    have hz' : MicroSens.Spec.Zero (List.map (fun _ : List ℝ => [(0 : ℝ)]) (MicroSens.Spec.places sampleCross [[(0 : ℝ), 1 / 2, 1], [0, 1]] e)) := by
      intro row hr x hx
      obtain ⟨q, _, rfl⟩ := List.mem_map.1 hr
      simpa using hx
    rw [List.filter_cons_of_pos (by simpa using hz), List.filter_cons_of_neg (by simpa using hz'), List.filter_nil, hpl]
    have he1 : (e : ℝ) ≤ 1 := by exact_mod_cast (by omega : e ≤ 1)
    have he0 : (0 : ℝ) ≤ e := Nat.cast_nonneg e
    have hb1 : (0 : ℝ) < 1 / 5 + e / 2 / 10 ∧ (1 / 5 + e / 2 / 10 : ℝ) < 1 / 2 := ⟨by linarith, by linarith⟩
    have hb2 : (0 : ℝ) < 1 / 5 + (e + 1) / 2 / 10 ∧ (1 / 5 + (e + 1) / 2 / 10 : ℝ) < 1 / 2 := ⟨by linarith, by linarith⟩
    have hb3 : (0 : ℝ) < 1 / 5 + (2 * e + 1) / 4 / 10 ∧ (1 / 5 + (2 * e + 1) / 4 / 10 : ℝ) < 1 / 2 := ⟨by linarith, by linarith⟩
    have hw : Tiles.within 0 (1 / 2) [[(1 / 5 + e / 2 / 10 : ℝ)], [1 / 5 + (e + 1) / 2 / 10], [1 / 5 + (2 * e + 1) / 4 / 10], [1 / 5 + (2 * e + 1) / 4 / 10]] = true := by
      rw [Tiles.within_iff]
      simp only [List.mem_cons, List.not_mem_nil, or_false]
      rintro r (rfl | rfl | rfl | rfl) y hy <;> rw [List.mem_singleton] at hy <;> subst hy <;> assumption
    have hmin : min (1 / 2) (1 / 2 / 1) = (1 / 2 : ℝ) := by norm_num
    have hx : closureName 'x' .lower = "x_min" := rfl
    have hx' : closureName 'x' .upper = "x_max" := rfl
    have hcl : ∃ c, ([some Side.lower, some Side.upper].getD e none).map (closureName ((some 'x').getD ' ')) = some c ∧ (c = "x_min" ∨ c = "x_max") := by
      obtain rfl | rfl : e = 0 ∨ e = 1 := by omega
      · exact ⟨_, rfl, Or.inl rfl⟩
      · exact ⟨_, rfl, Or.inr rfl⟩
    obtain ⟨c, hc, hc'⟩ := hcl
    rw [hc]
    simp only [List.map_cons, List.map_nil, List.getD_cons_zero]
    unfold Tiles.createCross2D Tiles.cross2DClosing
    simp only [Option.getD_some, hmin, hw]
    rcases hc' with rfl | rfl <;> norm_num [Tiles.checkParams, Tiles.checkDerivatives, Tiles.cross2DCloseTile, Tiles.cross2DCloseBranch]
    rw [if_neg (by decide)]
    rfl

end Splinepy.MicroTile
