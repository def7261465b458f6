import Mathlib.Analysis.Calculus.Deriv.Add
import Mathlib.Analysis.Calculus.Deriv.Mul
import Mathlib.Tactic.Ring
import Mathlib.Tactic.Linarith
import Mathlib.Tactic.NormNum
import Verif.Spec.Tiles

/-!
C75: the derivative splines returned by the tiles.
-/

set_option linter.unusedSimpArgs false

namespace Splinepy.Tiles

open Spec

/-- patches, moved along derivative patches -/
def comb (h : ℝ) (a b : List (Patch ℝ)) : List (Patch ℝ) :=
  List.zipWith (fun P D => ⟨P.degrees, List.zipWith (List.zipWith fun x y => x + h * y) P.cps D.cps⟩) a b

theorem getD_zip_real (h : ℝ) : ∀ (a b : List ℝ) (j : ℕ), a.length = b.length → (List.zipWith (fun x y => x + h * y) a b).getD j 0 = a.getD j 0 + h * b.getD j 0
  | [], [], j, _ => by simp
  | x :: a, y :: b, 0, _ => by simp
  | x :: a, y :: b, j + 1, e => by simpa using getD_zip_real h a b j (by simpa using e)

theorem getD_zip_rows (h : ℝ) : ∀ (a b : List (List ℝ)) (i j : ℕ), a.map List.length = b.map List.length →
    ((List.zipWith (List.zipWith fun x y => x + h * y) a b).getD i []).getD j 0 = (a.getD i []).getD j 0 + h * (b.getD i []).getD j 0
  | [], [], i, j, _ => by simp
  | x :: a, y :: b, 0, j, e => by
      simp only [List.map_cons, List.cons.injEq] at e
      simpa using getD_zip_real h x y j e.1
  | x :: a, y :: b, i + 1, j, e => by
      simp only [List.map_cons, List.cons.injEq] at e
      simpa using getD_zip_rows h a b i j e.2

theorem coord_comb (h : ℝ) : ∀ (a b : List (Patch ℝ)) (k i j : ℕ), shape a = shape b → coord (comb h a b) k i j = coord a k i j + h * coord b k i j
  | [], [], k, i, j, _ => by simp [comb, coord]
  | P :: a, D :: b, 0, i, j, e => by
      simp only [shape, List.map_cons, List.cons.injEq, Prod.mk.injEq] at e
      simpa [comb, coord] using getD_zip_rows h P.cps D.cps i j e.1.2
  | P :: a, D :: b, k + 1, i, j, e => by
      simp only [shape, List.map_cons, List.cons.injEq] at e
      simpa [comb, coord] using coord_comb h a b k i j e.2

/-- tiles that respond affinely to the parameters -/
theorem isDerivative_of_affine {f : ℝ → Option (Tile ℝ)} {T : Tile ℝ} {d : List (Patch ℝ)} (h0 : f 0 = some T) (hs : shape T.splines = shape d)
    (ha : ∀ h U, f h = some U → U.splines = comb h T.splines d) : IsDerivative f d := by
  refine ⟨T, h0, hs, fun k i j => ?_⟩
  have key : HasDerivWithinAt (fun h : ℝ => coord T.splines k i j + h * coord d k i j) (coord d k i j) {h | (f h).isSome} 0 := by
    have := ((hasDerivAt_id (0 : ℝ)).mul_const (coord d k i j)).const_add (coord T.splines k i j)
    simpa using this.hasDerivWithinAt
  refine key.congr (fun h hh => ?_) ?_
  · obtain ⟨U, hU⟩ := Option.isSome_iff_exists.1 hh
    rw [hU, Option.elim_some, ha h U hU, coord_comb h _ _ k i j hs]
  · rw [h0, Option.elim_some]; ring

theorem checkParams_iff {K : Type} (n m : ℕ) (p : Mat K) : checkParams n m p = true ↔ p.length = n ∧ ∀ r ∈ p, r.length = m := by
  simp [checkParams]

theorem zip_zero : ∀ a b : List ℝ, a.length = b.length → List.zipWith (fun x y => x + 0 * y) a b = a
  | [], [], _ => rfl
  | x :: a, y :: b, e => by simpa using zip_zero a b (by simpa using e)

theorem move_zero : ∀ (n m : ℕ) (p d : Mat ℝ), checkParams n m p = true → checkParams n m d = true → move p d 0 = p
  | 0, m, p, d, hp, hd => by
      rw [checkParams_iff] at hp hd
      rw [List.length_eq_zero_iff.1 hp.1]; rfl
  | n + 1, m, p, d, hp, hd => by
      rw [checkParams_iff] at hp hd
      obtain ⟨r, p, rfl⟩ := List.exists_cons_of_length_eq_add_one hp.1
      obtain ⟨t, d, rfl⟩ := List.exists_cons_of_length_eq_add_one hd.1
      have h1 := move_zero n m p d (by rw [checkParams_iff]; exact ⟨by simpa using hp.1, fun x hx => hp.2 x (by simp [hx])⟩)
        (by rw [checkParams_iff]; exact ⟨by simpa using hd.1, fun x hx => hd.2 x (by simp [hx])⟩)
      rw [move, List.zipWith_cons_cons, zip_zero r t ((hp.2 r (by simp)).trans (hd.2 t (by simp)).symm)]
      exact congrArg _ h1

/-- From the form of a tile to the correctness of its derivatives. -/
theorem correct_of_affine {create : Option (Mat ℝ) → Option (List (Mat ℝ)) → Option (Tile ℝ)} {tile der : Mat ℝ → List (Patch ℝ)} {n m : ℕ}
    (hc : ∀ p s T, create (some p) s = some T → checkParams n m p = true ∧ checkDerivatives n m s = true ∧ T = assemble (tile p) der s)
    (hn : ∀ p s T, create (some p) s = some T → ∃ T', create (some p) none = some T')
    (ha : ∀ p d h, checkParams n m p = true → checkParams n m d = true → tile (move p d h) = comb h (tile p) (der d))
    (hs : ∀ p d, shape (tile p) = shape (der d)) (p : Mat ℝ) (sens : List (Mat ℝ)) : DerivativesCorrect create p sens := by
  intro T hT
  obtain ⟨h1, h2, rfl⟩ := hc _ _ _ hT
  refine ⟨sens.map der, rfl, by simp, fun i s d hi hd => ?_⟩
  rw [List.getElem?_map, hi, Option.map_some, Option.some.injEq] at hd
  subst hd
  have hsd : checkParams n m s = true := by
    have := List.all_eq_true.1 h2 s (by simpa using List.mem_of_getElem? hi)
    exact this
  obtain ⟨T', hT'⟩ := hn _ _ _ hT
  have e' := (hc _ _ _ hT').2.2
  refine isDerivative_of_affine (T := T') (by simpa [move_zero n m p s h1 hsd] using hT') (by rw [e']; exact hs p s) fun h U hU => ?_
  have eU := (hc _ _ _ hU).2.2
  rw [eU, e']
  exact ha p s h h1 hsd

theorem params_four {K : Type} {p : Mat K} (h : checkParams 4 1 p = true) : ∃ a b c d : K, p = [[a], [b], [c], [d]] := by
  rw [checkParams_iff] at h
  match p, h with
  | [[a], [b], [c], [d]], _ => exact ⟨a, b, c, d, rfl⟩
  | [r0, r1, r2, r3], ⟨_, h⟩ =>
    obtain ⟨a, rfl⟩ := List.length_eq_one_iff.1 (h r0 (by simp))
    obtain ⟨b, rfl⟩ := List.length_eq_one_iff.1 (h r1 (by simp))
    obtain ⟨c, rfl⟩ := List.length_eq_one_iff.1 (h r2 (by simp))
    obtain ⟨d, rfl⟩ := List.length_eq_one_iff.1 (h r3 (by simp))
    exact ⟨a, b, c, d, rfl⟩

theorem params_six {K : Type} {p : Mat K} (h : checkParams 6 1 p = true) : ∃ a b c d e f : K, p = [[a], [b], [c], [d], [e], [f]] := by
  rw [checkParams_iff] at h
  match p, h with
  | [r0, r1, r2, r3, r4, r5], ⟨_, h⟩ =>
    obtain ⟨a, rfl⟩ := List.length_eq_one_iff.1 (h r0 (by simp))
    obtain ⟨b, rfl⟩ := List.length_eq_one_iff.1 (h r1 (by simp))
    obtain ⟨c, rfl⟩ := List.length_eq_one_iff.1 (h r2 (by simp))
    obtain ⟨d, rfl⟩ := List.length_eq_one_iff.1 (h r3 (by simp))
    obtain ⟨e, rfl⟩ := List.length_eq_one_iff.1 (h r4 (by simp))
    obtain ⟨f, rfl⟩ := List.length_eq_one_iff.1 (h r5 (by simp))
    exact ⟨a, b, c, d, e, f, rfl⟩

theorem params_seven {K : Type} {p : Mat K} (h : checkParams 7 1 p = true) : ∃ a b c d e f g : K, p = [[a], [b], [c], [d], [e], [f], [g]] := by
  rw [checkParams_iff] at h
  match p, h with
  | [r0, r1, r2, r3, r4, r5, r6], ⟨_, h⟩ =>
    obtain ⟨a, rfl⟩ := List.length_eq_one_iff.1 (h r0 (by simp))
    obtain ⟨b, rfl⟩ := List.length_eq_one_iff.1 (h r1 (by simp))
    obtain ⟨c, rfl⟩ := List.length_eq_one_iff.1 (h r2 (by simp))
    obtain ⟨d, rfl⟩ := List.length_eq_one_iff.1 (h r3 (by simp))
    obtain ⟨e, rfl⟩ := List.length_eq_one_iff.1 (h r4 (by simp))
    obtain ⟨f, rfl⟩ := List.length_eq_one_iff.1 (h r5 (by simp))
    obtain ⟨g, rfl⟩ := List.length_eq_one_iff.1 (h r6 (by simp))
    exact ⟨a, b, c, d, e, f, g, rfl⟩

theorem params_one_two {K : Type} {p : Mat K} (h : checkParams 1 2 p = true) : ∃ a b : K, p = [[a, b]] := by
  rw [checkParams_iff] at h
  obtain ⟨r, rfl⟩ := List.length_eq_one_iff.1 h.1
  obtain ⟨a, b, rfl⟩ := List.length_eq_two.1 (h.2 r (by simp))
  exact ⟨a, b, rfl⟩

theorem params_one {K : Type} {p : Mat K} (h : checkParams 1 1 p = true) : ∃ a : K, p = [[a]] := by
  rw [checkParams_iff] at h
  obtain ⟨r, rfl⟩ := List.length_eq_one_iff.1 h.1
  obtain ⟨a, rfl⟩ := List.length_eq_one_iff.1 (h.2 r (by simp))
  exact ⟨a, rfl⟩

/-- compare two lists of patches entry by entry -/
macro "patches" : tactic => `(tactic| (
  simp only [comb, shift, unshift, row, move, entry, List.map_cons, List.map_nil, List.zipWith_cons_cons, List.zipWith_nil_left, List.getD_cons_zero, List.getD_cons_succ,
    List.replicate, List.cons.injEq, Patch.mk.injEq, and_true, true_and]
  and_intros <;> ring))

/-- Cross2D, ordinary tile. -/
theorem cross2D_derivatives (expansion bound fill : ℝ) (p : Mat ℝ) (sens : List (Mat ℝ)) : DerivativesCorrect (createCross2D expansion bound fill none) p sens := by
  refine correct_of_affine (n := 4) (m := 1) (tile := cross2DTile expansion) (der := cross2DDerivative expansion) ?_ ?_ ?_ ?_ p sens
  · intro p s T h
    simp only [createCross2D, Option.getD_some, Option.ite_none_right_eq_some, Bool.and_eq_true, Option.some.injEq] at h
    exact ⟨h.1.1.1.2, h.1.2, h.2.symm⟩
  · intro p s T h
    simp only [createCross2D, Option.getD_some, Option.ite_none_right_eq_some, Bool.and_eq_true, Option.some.injEq] at h ⊢
    exact ⟨_, ⟨h.1.1, rfl⟩, rfl⟩
  · intro p d h hp hd
    obtain ⟨a, b, c, e, rfl⟩ := params_four hp
    obtain ⟨a', b', c', e', rfl⟩ := params_four hd
    unfold cross2DTile cross2DDerivative cross2DCenter cross2D
    patches
  · intro p d; rfl

/-- Cross2D, closing tiles. -/
theorem cross2D_closing_derivatives (expansion bound fill : ℝ) (closure : String) (p : Mat ℝ) (sens : List (Mat ℝ)) :
    DerivativesCorrect (createCross2D expansion bound fill (some closure)) p sens := by
  by_cases hc : closure = "x_min" ∨ closure = "x_max" ∨ closure = "y_min" ∨ closure = "y_max"
  · refine correct_of_affine (n := 4) (m := 1) (tile := fun p => (cross2DCloseTile closure bound fill p).getD [])
      (der := fun d => (cross2DCloseDerivative closure d).getD []) ?_ ?_ ?_ ?_ p sens
    · intro p s T h
      simp only [createCross2D, cross2DClosing, Option.getD_some, Option.ite_none_right_eq_some, Bool.and_eq_true] at h
      refine ⟨h.1.1.1.2, h.1.2, ?_⟩
      cases ht : cross2DCloseTile closure bound fill p with
      | none => simp [ht] at h
      | some t => simpa [ht] using h.2.2.symm
    · intro p s T h
      simp only [createCross2D, cross2DClosing, Option.getD_some, Option.ite_none_right_eq_some, Bool.and_eq_true] at h ⊢
      cases ht : cross2DCloseTile closure bound fill p with
      | none => simp [ht] at h
      | some t => exact ⟨assemble t (fun d => (cross2DCloseDerivative closure d).getD []) none, ⟨h.1.1, rfl⟩, ⟨h.2.1.1, rfl⟩, rfl⟩
    · intro p d h hp hd
      obtain ⟨a, b, c, e, rfl⟩ := params_four hp
      obtain ⟨a', b', c', e', rfl⟩ := params_four hd
      rcases hc with rfl | rfl | rfl | rfl
      · simp only [cross2DCloseTile, cross2DCloseDerivative, cross2DCloseBranch, if_true, Option.getD_some, cross2DCloseXMin]
        patches
      · simp only [cross2DCloseTile, cross2DCloseDerivative, cross2DCloseBranch, if_true, Option.getD_some, cross2DCloseXMax, String.reduceEq, if_false]
        patches
      · simp only [cross2DCloseTile, cross2DCloseDerivative, cross2DCloseBranch, if_true, Option.getD_some, cross2DCloseYMin, String.reduceEq, if_false]
        patches
      · simp only [cross2DCloseTile, cross2DCloseDerivative, cross2DCloseBranch, if_true, Option.getD_some, cross2DCloseYMax, String.reduceEq, if_false]
        patches
    · intro p d
      rcases hc with rfl | rfl | rfl | rfl <;> rfl
  · intro T hT
    push Not at hc
    simp [createCross2D, cross2DClosing, cross2DCloseTile, cross2DCloseBranch, hc.1, hc.2.1, hc.2.2.1, hc.2.2.2] at hT

/-- DoubleLattice. -/
theorem double_lattice_derivatives (sqrt2 contact : ℝ) (closure : Option String) (p : Mat ℝ) (sens : List (Mat ℝ)) :
    DerivativesCorrect (createDoubleLattice sqrt2 contact closure) p sens := by
  refine correct_of_affine (n := 1) (m := 2) (tile := doubleLatticeTile sqrt2 contact (1 / 2) 1) (der := doubleLatticeTile sqrt2 0 0 0) ?_ ?_ ?_ ?_ p sens
  · intro p s T h
    simp only [createDoubleLattice, Option.getD_some, Option.ite_none_right_eq_some, Bool.and_eq_true, Option.some.injEq] at h
    exact ⟨h.1.1.2, h.1.2, h.2.symm⟩
  · intro p s T h
    simp only [createDoubleLattice, Option.getD_some, Option.ite_none_right_eq_some, Bool.and_eq_true, Option.some.injEq] at h ⊢
    exact ⟨_, ⟨h.1.1, rfl⟩, rfl⟩
  · intro p d h hp hd
    obtain ⟨a, b, rfl⟩ := params_one_two hp
    obtain ⟨a', b', rfl⟩ := params_one_two hd
    unfold doubleLatticeTile doubleLattice
    patches
  · intro p d; rfl

/-- HollowCube. -/
theorem hollow_cube_derivatives (closure : Option String) (p : Mat ℝ) (sens : List (Mat ℝ)) : DerivativesCorrect (createHollowCube closure) p sens := by
  refine correct_of_affine (n := 7) (m := 1) (tile := hollowCubeTile 1) (der := hollowCubeTile 0) ?_ ?_ ?_ ?_ p sens
  · intro p s T h
    simp only [createHollowCube, Option.getD_some, Option.ite_none_right_eq_some, Bool.and_eq_true, Option.some.injEq] at h
    exact ⟨h.1.1.1, h.1.2, h.2.symm⟩
  · intro p s T h
    simp only [createHollowCube, Option.getD_some, Option.ite_none_right_eq_some, Bool.and_eq_true, Option.some.injEq] at h ⊢
    exact ⟨_, ⟨h.1.1, rfl⟩, rfl⟩
  · intro p d h hp hd
    obtain ⟨a, b, c, e, f, g, i, rfl⟩ := params_seven hp
    obtain ⟨a', b', c', e', f', g', i', rfl⟩ := params_seven hd
    unfold hollowCubeTile hollowCube
    patches
  · intro p d; rfl

/-- Cross3D, ordinary tile. -/
theorem cross3D_derivatives (expansion bound fill : ℝ) (p : Mat ℝ) (sens : List (Mat ℝ)) : DerivativesCorrect (createCross3D expansion bound fill none) p sens := by
  refine correct_of_affine (n := 6) (m := 1) (tile := cross3DTile expansion) (der := cross3DDerivative expansion) ?_ ?_ ?_ ?_ p sens
  · intro p s T h
    simp only [createCross3D, Option.getD_some, Option.ite_none_right_eq_some, Bool.and_eq_true, Option.some.injEq] at h
    exact ⟨h.1.1.1.2, h.1.2, h.2.symm⟩
  · intro p s T h
    simp only [createCross3D, Option.getD_some, Option.ite_none_right_eq_some, Bool.and_eq_true, Option.some.injEq] at h ⊢
    exact ⟨_, ⟨h.1.1, rfl⟩, rfl⟩
  · intro p d h hp hd
    obtain ⟨a, b, c, e, f, g, rfl⟩ := params_six hp
    obtain ⟨a', b', c', e', f', g', rfl⟩ := params_six hd
    unfold cross3DTile cross3DDerivative cross3DCenter cross3D
    patches
  · intro p d; rfl

/-- Cross3DLinear, ordinary tile. -/
theorem cross3D_linear_derivatives (expansion bound fill : ℝ) (p : Mat ℝ) (sens : List (Mat ℝ)) :
    DerivativesCorrect (createCross3DLinear expansion bound fill none) p sens := by
  refine correct_of_affine (n := 6) (m := 1) (tile := cross3DLinearTile expansion (1 / 2)) (der := cross3DLinearTile expansion 0) ?_ ?_ ?_ ?_ p sens
  · intro p s T h
    simp only [createCross3DLinear, Option.getD_some, Option.ite_none_right_eq_some, Bool.and_eq_true, Option.some.injEq] at h
    exact ⟨h.1.1.1.2, h.1.2, h.2.symm⟩
  · intro p s T h
    simp only [createCross3DLinear, Option.getD_some, Option.ite_none_right_eq_some, Bool.and_eq_true, Option.some.injEq] at h ⊢
    exact ⟨_, ⟨h.1.1, rfl⟩, rfl⟩
  · intro p d h hp hd
    obtain ⟨a, b, c, e, f, g, rfl⟩ := params_six hp
    obtain ⟨a', b', c', e', f', g', rfl⟩ := params_six hd
    unfold cross3DLinearTile cross3DCenter cross3DLinear
    patches
  · intro p d; rfl

theorem closing3D_correct (expansion : ℝ) (closure : String) (lower upper lowerD upperD : ℝ → List (Patch ℝ)) (hb : Bool)
    (create : Option (Mat ℝ) → Option (List (Mat ℝ)) → Option (Tile ℝ))
    (hcr : ∀ p s, create (some p) s =
      if checkParams 6 1 p && withinClosed (min (1 / 2) (1 / 2 / expansion)) p && checkDerivatives 6 1 s && within 0 (1 / 2) p && hb then
        (cross3DCloseBranch closure lower upper p).map fun t => assemble t (fun d => (cross3DCloseBranch closure lowerD upperD d).getD []) s
      else none)
    (hl : ∀ x y h, lower (x + h * y) = comb h (lower x) (lowerD y)) (hu : ∀ x y h, upper (x + h * y) = comb h (upper x) (upperD y))
    (hsl : ∀ x y, shape (lower x) = shape (lowerD y)) (hsu : ∀ x y, shape (upper x) = shape (upperD y))
    (p : Mat ℝ) (sens : List (Mat ℝ)) : DerivativesCorrect create p sens := by
  by_cases hc : closure = "z_min" ∨ closure = "z_max"
  · refine correct_of_affine (n := 6) (m := 1) (tile := fun p => (cross3DCloseBranch closure lower upper p).getD [])
      (der := fun d => (cross3DCloseBranch closure lowerD upperD d).getD []) ?_ ?_ ?_ ?_ p sens
    · intro p s T h
      rw [hcr, Option.ite_none_right_eq_some] at h
      simp only [Bool.and_eq_true] at h
      refine ⟨h.1.1.1.1.1, h.1.1.1.2, ?_⟩
      cases ht : cross3DCloseBranch closure lower upper p with
      | none => simp [ht] at h
      | some t => simpa [ht] using h.2.symm
    · intro p s T h
      rw [hcr, Option.ite_none_right_eq_some] at h
      simp only [Bool.and_eq_true] at h
      cases ht : cross3DCloseBranch closure lower upper p with
      | none => simp [ht] at h
      | some t =>
        refine ⟨assemble t (fun d => (cross3DCloseBranch closure lowerD upperD d).getD []) none, ?_⟩
        rw [hcr, ht, if_pos, Option.map_some]
        simp only [Bool.and_eq_true]
        exact ⟨⟨⟨h.1.1.1.1, rfl⟩, h.1.1.2⟩, h.1.2⟩
    · intro p d h hp hd
      obtain ⟨a, b, c, e, f, g, rfl⟩ := params_six hp
      obtain ⟨a', b', c', e', f', g', rfl⟩ := params_six hd
      rcases hc with rfl | rfl
      · simpa [cross3DCloseBranch, entry, move] using hl g g' h
      · simpa [cross3DCloseBranch, entry, move] using hu f f' h
    · intro p d
      rcases hc with rfl | rfl
      · simpa [cross3DCloseBranch] using hsl _ _
      · simpa [cross3DCloseBranch] using hsu _ _
  · intro T hT
    push Not at hc
    rw [hcr, Option.ite_none_right_eq_some] at hT
    simp [cross3DCloseBranch, hc.1, hc.2] at hT

/-- compare patches with clamped entries -/
macro "patches'" : tactic => `(tactic| (
  simp only [comb, shift, unshift, clampLow, clampHigh, row, move, entry, List.map_cons, List.map_nil, List.zipWith_cons_cons, List.zipWith_nil_left, List.getD_cons_zero,
    List.getD_cons_succ, List.replicate, List.cons.injEq, Patch.mk.injEq, and_true, true_and, mul_zero, add_zero]
  and_intros <;> ring))

/-- Cross3D, closing tiles. -/
theorem cross3D_closing_derivatives (expansion bound fill : ℝ) (closure : String) (p : Mat ℝ) (sens : List (Mat ℝ)) :
    DerivativesCorrect (createCross3D expansion bound fill (some closure)) p sens := by
  refine closing3D_correct expansion closure (closeValues cross3DCloseZMin bound fill) (closeValues cross3DCloseZMax bound fill)
    (closeZeros cross3DCloseZMinDerivative) (closeZeros cross3DCloseZMaxDerivative)
    ((decide (1 / 2 < expansion) && decide (expansion < 3 / 2)) && (decide (0 < bound) && decide (bound < 1 / 2)) && (decide (0 < fill) && decide (fill < 1)))
    _ ?_ ?_ ?_ ?_ ?_ p sens
  · intro p s
    simp only [createCross3D, cross3DClosing, Option.getD_some]
    split_ifs with h1 h2 h3 h3 h3
    · cases cross3DCloseBranch closure (closeValues cross3DCloseZMin bound fill) (closeValues cross3DCloseZMax bound fill) p <;> rfl
    all_goals first | rfl | (exfalso; simp only [Bool.and_eq_true] at *; tauto)
  · intro x y h
    unfold closeValues closeZeros cross3DCloseZMin cross3DCloseZMinDerivative
    patches'
  · intro x y h
    unfold closeValues closeZeros cross3DCloseZMax cross3DCloseZMaxDerivative
    patches'
  · intro x y; rfl
  · intro x y; rfl

/-- Cross3DLinear, closing tiles. -/
theorem cross3D_linear_closing_derivatives (expansion bound fill : ℝ) (closure : String) (p : Mat ℝ) (sens : List (Mat ℝ)) :
    DerivativesCorrect (createCross3DLinear expansion bound fill (some closure)) p sens := by
  refine closing3D_correct expansion closure (closeValues cross3DLinearCloseZMin bound fill) (closeValues cross3DLinearCloseZMax bound fill)
    (closeZeros cross3DLinearCloseZMinDerivative) (closeZeros cross3DLinearCloseZMaxDerivative)
    ((decide (1 / 2 < expansion) && decide (expansion < 3 / 2)) && (decide (0 < bound) && decide (bound < 1 / 2)) && (decide (0 < fill) && decide (fill < 1)))
    _ ?_ ?_ ?_ ?_ ?_ p sens
  · intro p s
    simp only [createCross3DLinear, cross3DLinearClosing, Option.getD_some]
    split_ifs with h1 h2 h3 h3 h3
    · cases cross3DCloseBranch closure (closeValues cross3DLinearCloseZMin bound fill) (closeValues cross3DLinearCloseZMax bound fill) p <;> rfl
    all_goals first | rfl | (exfalso; simp only [Bool.and_eq_true] at *; tauto)
  · intro x y h
    unfold closeValues closeZeros cross3DLinearCloseZMin cross3DLinearCloseZMinDerivative
    patches'
  · intro x y h
    unfold closeValues closeZeros cross3DLinearCloseZMax cross3DLinearCloseZMaxDerivative
    patches'
  · intro x y; rfl
  · intro x y; rfl

/-! The parameters and sensitivities below are accepted. -/

example : (createCross2D (1 : ℝ) (1 / 10) (1 / 2) none (some [[1 / 5], [1 / 10], [1 / 4], [2 / 5]]) (some [[[1], [0], [2], [0]], [[0], [3], [0], [1]]])).isSome = true := by
  norm_num [createCross2D, checkParams, within, checkDerivatives, assemble]

example : (createCross2D (1 : ℝ) (1 / 10) (1 / 2) (some "y_max") (some [[1 / 5], [1 / 10], [1 / 4], [2 / 5]]) (some [[[1], [0], [2], [0]]])).isSome = true := by
  norm_num [createCross2D, cross2DClosing, cross2DCloseTile, cross2DCloseBranch, checkParams, within, checkDerivatives, assemble]
  simp

example : (createDoubleLattice (7 / 5 : ℝ) (1 / 2) none (some [[1 / 5, 1 / 10]]) (some [[[1, 2]]])).isSome = true := by
  norm_num [createDoubleLattice, checkParams, within, checkDerivatives, assemble]

example : (createHollowCube none (some [[(1 / 5 : ℝ)], [1 / 10], [1 / 4], [2 / 5], [1 / 3], [1 / 6], [1 / 7]]) (some [[[1], [2], [3], [4], [5], [6], [7]]])).isSome = true := by
  norm_num [createHollowCube, checkParams, within, checkDerivatives, assemble]

example : (createCross3D (1 : ℝ) (1 / 10) (1 / 2) none (some [[(1 / 5 : ℝ)], [1 / 10], [1 / 4], [2 / 5], [1 / 3], [1 / 6]]) (some [[[1], [2], [3], [4], [5], [6]]])).isSome = true := by
  norm_num [createCross3D, checkParams, withinClosed, checkDerivatives, assemble]

example : (createCross3DLinear (1 : ℝ) (1 / 10) (1 / 2) none (some [[(1 / 5 : ℝ)], [1 / 10], [1 / 4], [2 / 5], [1 / 3], [1 / 6]]) (some [[[1], [2], [3], [4], [5], [6]]])).isSome = true := by
  norm_num [createCross3DLinear, checkParams, withinClosed, checkDerivatives, assemble]

example : (createCross3D (1 : ℝ) (1 / 10) (1 / 2) (some "z_min") (some [[(1 / 5 : ℝ)], [1 / 10], [1 / 4], [2 / 5], [1 / 3], [1 / 6]]) (some [[[1], [2], [3], [4], [5], [6]]])).isSome = true := by
  norm_num [createCross3D, cross3DClosing, cross3DCloseBranch, checkParams, within, withinClosed, checkDerivatives, assemble]

example : (createCross3DLinear (1 : ℝ) (1 / 10) (1 / 2) (some "z_max") (some [[(1 / 5 : ℝ)], [1 / 10], [1 / 4], [2 / 5], [1 / 3], [1 / 6]]) (some [[[1], [2], [3], [4], [5], [6]]])).isSome = true := by
  norm_num [createCross3DLinear, cross3DLinearClosing, cross3DCloseBranch, checkParams, within, withinClosed, checkDerivatives, assemble]
  simp

end Splinepy.Tiles
