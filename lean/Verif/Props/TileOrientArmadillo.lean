import Verif.Lemma.Trilinear
import Verif.Props.TileArmadillo

/-!
C107 for `Armadillo`: all patches of all tiles, closing tiles included, are right-handed.
-/
namespace Splinepy.Tiles

open Spec Splinepy.Spec

/-- the entries of `armadilloTable` as codes of `codeValue` -/
def signCode (n : ℕ) : ℤ := ([-4, 4, 1, -3, 3, -2, 2, -1] : List ℤ).getD n (-4)

theorem look_signCode (t c : ℝ) (n : ℕ) : look (armadilloTable t (c * (1 / 2)) (c * t)) n = codeValue t c (signCode n) := by
  have s2 : Int.sign 2 = 1 := rfl
  have s3 : Int.sign 3 = 1 := rfl
  have s4 : Int.sign 4 = 1 := rfl
  rcases n with _ | _ | _ | _ | _ | _ | _ | _ | n <;> simp [look, armadilloTable, signCode, codeValue, s2, s3, s4] <;> ring

/-- the condition for all patches -/
def checkTile (l : List (Patch ℕ)) : Bool := l.all fun P => decide (P.degrees = [1, 1, 1]) && checkPatch (P.cps.map (List.map signCode))

theorem right_of_checkTile {t c : ℝ} (ht : 0 < t) (ht' : t < 1 / 2) (hc : 0 < c) (hc' : c < 1) {l : List (Patch ℕ)} (h : checkTile l = true) :
    ∀ P ∈ decode (look (armadilloTable t (c * (1 / 2)) (c * t))) l, RightHanded 3 P := by
  intro P hP
  obtain ⟨Q, hQ, rfl⟩ := List.mem_map.1 hP
  simp only [checkTile, List.all_eq_true, Bool.and_eq_true, decide_eq_true_eq] at h
  obtain ⟨h1, h2⟩ := h Q hQ
  have := right_of_check ht ht' hc hc' h2
  rw [decodePatch, h1]
  convert this using 2
  simp only [decodeRows, List.map_map]
  refine List.map_congr_left fun r _ => ?_
  simp only [Function.comp, List.map_map]
  exact List.map_congr_left fun n _ => look_signCode t c n

theorem checkTile_armadillo : checkTile armadilloCode = true := by decide +kernel
theorem checkTile_xMin : checkTile armadilloCloseXMinCode = true := by decide +kernel
theorem checkTile_xMax : checkTile armadilloCloseXMaxCode = true := by decide +kernel
theorem checkTile_yMin : checkTile armadilloCloseYMinCode = true := by decide +kernel
theorem checkTile_yMax : checkTile armadilloCloseYMaxCode = true := by decide +kernel
theorem checkTile_zMin : checkTile armadilloCloseZMinCode = true := by decide +kernel
theorem checkTile_zMax : checkTile armadilloCloseZMaxCode = true := by decide +kernel

/-- C107: whatever contact length, wall thickness and closure: every patch of an `Armadillo` tile has a positive Jacobian determinant at every parametric point. -/
theorem armadillo_oriented (contact : ℝ) (closure : Option String) (p : Option (Mat ℝ)) (s : Option (List (Mat ℝ))) (T : Tile ℝ)
    (h : createArmadillo contact closure p s = some T) : Oriented 3 T.splines := by
  obtain ⟨w, hw, hh, hi, c, hc, hT⟩ := armadillo_cases h
  have hc0 : 0 < contact := by linarith [hh.1]
  have hc1 : contact < 1 := by linarith [hh.2]
  rw [hT]
  refine right_of_checkTile hw.1 hw.2 hc0 hc1 ?_
  match closure, hc with
  | none, hc =>
    simp only [armadilloCodes, Option.some.injEq] at hc
    exact hc ▸ checkTile_armadillo
  | some cl, hc =>
    simp only [armadilloCodes] at hc
    split_ifs at hc <;> rw [Option.some.injEq] at hc <;> subst hc
    · exact checkTile_xMin
    · exact checkTile_xMax
    · exact checkTile_yMin
    · exact checkTile_yMax
    · exact checkTile_zMax
    · exact checkTile_zMin

example : ∃ T, createArmadillo (3 / 10 : ℝ) (some "x_max") (some [[2 / 5]]) none = some T := by
  simp only [createArmadillo, armadilloClosing]
  rw [if_pos]
  · exact ⟨_, rfl⟩
  · simp [checkParams, within]
    norm_num

end Splinepy.Tiles
