import Verif.Props.TileOrient

/-!
C107 for `EllipsVoid`: the tile around an ellipsoid without rotation is right-handed exactly as long as the void is inside of the cell.
-/
namespace Splinepy.Tiles

open Spec Splinepy.Spec

noncomputable section

/-! ### the six patches in coordinates -/

/-- how wide the sphere is, `c` is the coordinate of its corners -/
def bulge (c t : ℝ) : ℝ := c + c / 2 * (2 * t * (1 - t))

/-- how high the sphere is -/
def height (c s t : ℝ) : ℝ := (1 - 2 * s * (1 - s)) * (1 - 2 * t * (1 - t)) * c + 3 * c / 2 * (2 * s * (1 - s) + 2 * t * (1 - t))

/-- coordinate along the cell: `ω` is the share of the sphere -/
def across (c r ω s t : ℝ) : ℝ := 1 / 2 + (2 * s - 1) * ((1 - ω) / 2 + ω * r * bulge c t)

/-- coordinate from the outside to the sphere -/
def towards (c r n ω s t : ℝ) : ℝ := 1 / 2 + n * ((1 - ω) / 2 + ω * r * height c s t)

/-- The control points of the ellipsoid. -/
def ellipsPoints (c x y : ℝ) : List (List ℝ) :=
  [[1 / 2 - x * c, 1 / 2 - y * c, 1 / 2 - y * c], [1 / 2, 1 / 2 - y * (3 * c / 2), 1 / 2 - y * (3 * c / 2)], [1 / 2 + x * c, 1 / 2 - y * c, 1 / 2 - y * c],
   [1 / 2 - x * (3 * c / 2), 1 / 2, 1 / 2 - y * (3 * c / 2)], [1 / 2, 1 / 2, 1 / 2 - y * (3 * c)], [1 / 2 + x * (3 * c / 2), 1 / 2, 1 / 2 - y * (3 * c / 2)],
   [1 / 2 - x * c, 1 / 2 + y * c, 1 / 2 - y * c], [1 / 2, 1 / 2 + y * (3 * c / 2), 1 / 2 - y * (3 * c / 2)], [1 / 2 + x * c, 1 / 2 + y * c, 1 / 2 - y * c],
   [1 / 2 - x * (3 * c / 2), 1 / 2 - y * (3 * c / 2), 1 / 2], [1 / 2, 1 / 2 - y * (3 * c), 1 / 2], [1 / 2 + x * (3 * c / 2), 1 / 2 - y * (3 * c / 2), 1 / 2],
   [1 / 2 - x * (3 * c), 1 / 2, 1 / 2], [1 / 2, 1 / 2, 1 / 2], [1 / 2 + x * (3 * c), 1 / 2, 1 / 2],
   [1 / 2 - x * (3 * c / 2), 1 / 2 + y * (3 * c / 2), 1 / 2], [1 / 2, 1 / 2 + y * (3 * c), 1 / 2], [1 / 2 + x * (3 * c / 2), 1 / 2 + y * (3 * c / 2), 1 / 2],
   [1 / 2 - x * c, 1 / 2 - y * c, 1 / 2 + y * c], [1 / 2, 1 / 2 - y * (3 * c / 2), 1 / 2 + y * (3 * c / 2)], [1 / 2 + x * c, 1 / 2 - y * c, 1 / 2 + y * c],
   [1 / 2 - x * (3 * c / 2), 1 / 2, 1 / 2 + y * (3 * c / 2)], [1 / 2, 1 / 2, 1 / 2 + y * (3 * c)], [1 / 2 + x * (3 * c / 2), 1 / 2, 1 / 2 + y * (3 * c / 2)],
   [1 / 2 - x * c, 1 / 2 + y * c, 1 / 2 + y * c], [1 / 2, 1 / 2 + y * (3 * c / 2), 1 / 2 + y * (3 * c / 2)], [1 / 2 + x * c, 1 / 2 + y * c, 1 / 2 + y * c]]

theorem ellips_points (x y : ℝ) : voidPoints ellipsSphere [[x, y, 0, 0]] = ellipsPoints (√3 / 6) x y := by
  have e : rotY (flatEntry [[x, y, 0, 0]] 3) * rotX (flatEntry [[x, y, 0, 0]] 2) * diag3 (flatEntry [[x, y, 0, 0]] 0) (flatEntry [[x, y, 0, 0]] 1) = diag3 x y := by
    simp [flatEntry, rotX, rotY, diag3, Matrix.one_fin_three.symm]
  have h1 : (1 : ℝ) / 2 / √3 = √3 / 6 := by
    have : (√3 : ℝ) ≠ 0 := by positivity
    field_simp
    norm_num
  have h2 : √3 / 2 * (1 / 2) = 3 * (√3 / 6) / 2 := by ring
  have h3 : √3 / 2 * (1 / 2) * 2 = 3 * (√3 / 6) := by ring
  simp only [voidPoints, e, ellipsSphere, h1, h3]
  simp only [h2]
  generalize √3 / 6 = c
  have hrow : ∀ a b d : ℝ, List.zipWith (· + ·) ((List.finRange 3).map fun i => ∑ l : Fin 3, diag3 x y i l * ([a, b, d] : List ℝ).getD l 0) [1 / 2, 1 / 2, 1 / 2] =
      [x * a + 1 / 2, y * b + 1 / 2, y * d + 1 / 2] := by
    intro a b d
    simp [diag3, List.finRange_succ, Fin.sum_univ_three]
  simp only [shift, applyRows, List.map_cons, List.map_nil, hrow, ellipsPoints]
  simp only [List.cons.injEq, and_true]
  and_intros <;> ring

theorem ellips_patch0 (c x y u v w : ℝ) (j : ℕ) (hj : j < 3) : point (bezier ((ellipsVoid 0 (1 / 2) 1 (ellipsPoints c x y)).getD 0 ⟨[], []⟩)) [u, v, w] j =
    ([across c x w u v, across c y w v u, towards c y (-1) w u v] : List ℝ).getD j 0 := by
  rcases (by omega : j = 0 ∨ j = 1 ∨ j = 2) with rfl | rfl | rfl <;>
  · simp [ellipsVoid, ellipsPoints, row, point, value, bezier, netSize, directions, Direction.size, basisValues, Direction.basis, tensorEval, basisProduct, digits, bernstein, List.range_succ, Nat.choose,
      across, towards, bulge, height]
    ring

theorem ellips_patch1 (c x y u v w : ℝ) (j : ℕ) (hj : j < 3) : point (bezier ((ellipsVoid 0 (1 / 2) 1 (ellipsPoints c x y)).getD 1 ⟨[], []⟩)) [u, v, w] j =
    ([across c x (1 - w) u v, across c y (1 - w) v u, towards c y 1 (1 - w) u v] : List ℝ).getD j 0 := by
  rcases (by omega : j = 0 ∨ j = 1 ∨ j = 2) with rfl | rfl | rfl <;>
  · simp [ellipsVoid, ellipsPoints, row, point, value, bezier, netSize, directions, Direction.size, basisValues, Direction.basis, tensorEval, basisProduct, digits, bernstein, List.range_succ, Nat.choose,
      across, towards, bulge, height]
    ring

theorem ellips_patch2 (c x y u v w : ℝ) (j : ℕ) (hj : j < 3) : point (bezier ((ellipsVoid 0 (1 / 2) 1 (ellipsPoints c x y)).getD 2 ⟨[], []⟩)) [u, v, w] j =
    ([across c x v u w, towards c y (-1) v u w, across c y v w u] : List ℝ).getD j 0 := by
  rcases (by omega : j = 0 ∨ j = 1 ∨ j = 2) with rfl | rfl | rfl <;>
  · simp [ellipsVoid, ellipsPoints, row, point, value, bezier, netSize, directions, Direction.size, basisValues, Direction.basis, tensorEval, basisProduct, digits, bernstein, List.range_succ, Nat.choose,
      across, towards, bulge, height]
    ring

theorem ellips_patch3 (c x y u v w : ℝ) (j : ℕ) (hj : j < 3) : point (bezier ((ellipsVoid 0 (1 / 2) 1 (ellipsPoints c x y)).getD 3 ⟨[], []⟩)) [u, v, w] j =
    ([across c x (1 - v) u w, towards c y 1 (1 - v) u w, across c y (1 - v) w u] : List ℝ).getD j 0 := by
  rcases (by omega : j = 0 ∨ j = 1 ∨ j = 2) with rfl | rfl | rfl <;>
  · simp [ellipsVoid, ellipsPoints, row, point, value, bezier, netSize, directions, Direction.size, basisValues, Direction.basis, tensorEval, basisProduct, digits, bernstein, List.range_succ, Nat.choose,
      across, towards, bulge, height]
    ring

theorem ellips_patch4 (c x y u v w : ℝ) (j : ℕ) (hj : j < 3) : point (bezier ((ellipsVoid 0 (1 / 2) 1 (ellipsPoints c x y)).getD 4 ⟨[], []⟩)) [u, v, w] j =
    ([towards c x (-1) u v w, across c y u v w, across c y u w v] : List ℝ).getD j 0 := by
  rcases (by omega : j = 0 ∨ j = 1 ∨ j = 2) with rfl | rfl | rfl <;>
  · simp [ellipsVoid, ellipsPoints, row, point, value, bezier, netSize, directions, Direction.size, basisValues, Direction.basis, tensorEval, basisProduct, digits, bernstein, List.range_succ, Nat.choose,
      across, towards, bulge, height]
    ring

theorem ellips_patch5 (c x y u v w : ℝ) (j : ℕ) (hj : j < 3) : point (bezier ((ellipsVoid 0 (1 / 2) 1 (ellipsPoints c x y)).getD 5 ⟨[], []⟩)) [u, v, w] j =
    ([towards c x 1 (1 - u) v w, across c y (1 - u) v w, across c y (1 - u) w v] : List ℝ).getD j 0 := by
  rcases (by omega : j = 0 ∨ j = 1 ∨ j = 2) with rfl | rfl | rfl <;>
  · simp [ellipsVoid, ellipsPoints, row, point, value, bezier, netSize, directions, Direction.size, basisValues, Direction.basis, tensorEval, basisProduct, digits, bernstein, List.range_succ, Nat.choose,
      across, towards, bulge, height]
    ring

/-! ### derivatives of the coordinates -/

/-- derivative of the height -/
def slope (c t : ℝ) : ℝ := c / 2 * (1 - 2 * t * (1 - t)) + 3 * c / 2 * (2 * t * (1 - t))

theorem deriv_across_s (c r ω s t : ℝ) : deriv (fun a => across c r ω a t) s = 2 * ((1 - ω) / 2 + ω * r * bulge c t) := by
  rw [deriv_cubic _ (across c r ω 0 t) (2 * ((1 - ω) / 2 + ω * r * bulge c t)) 0 0 (fun a => by simp only [across]; ring)]
  ring

theorem deriv_across_t (c r ω s t : ℝ) : deriv (fun a => across c r ω s a) t = (2 * s - 1) * (ω * r * (c * (1 - 2 * t))) := by
  rw [deriv_cubic _ (across c r ω s 0) ((2 * s - 1) * (ω * r * c)) (-((2 * s - 1) * (ω * r * c))) 0 (fun a => by simp only [across, bulge]; ring)]
  ring

theorem deriv_across_ω (c r ω s t : ℝ) : deriv (fun a => across c r a s t) ω = -((2 * s - 1) * (1 / 2 - r * bulge c t)) := by
  rw [deriv_cubic _ (across c r 0 s t) (-((2 * s - 1) * (1 / 2 - r * bulge c t))) 0 0 (fun a => by simp only [across]; ring)]
  ring

theorem deriv_across_ω' (c r ω s t : ℝ) : deriv (fun a => across c r (1 - a) s t) ω = (2 * s - 1) * (1 / 2 - r * bulge c t) := by
  rw [deriv_cubic _ (across c r 1 s t) ((2 * s - 1) * (1 / 2 - r * bulge c t)) 0 0 (fun a => by simp only [across]; ring)]
  ring

theorem deriv_towards_s (c r n ω s t : ℝ) : deriv (fun a => towards c r n ω a t) s = n * (ω * r * (2 * (1 - 2 * s) * slope c t)) := by
  rw [deriv_cubic _ (towards c r n ω 0 t) (n * (ω * r * (2 * slope c t))) (-(n * (ω * r * (2 * slope c t)))) 0 (fun a => by simp only [towards, height, slope]; ring)]
  ring

theorem deriv_towards_t (c r n ω s t : ℝ) : deriv (fun a => towards c r n ω s a) t = n * (ω * r * (2 * (1 - 2 * t) * slope c s)) := by
  rw [deriv_cubic _ (towards c r n ω s 0) (n * (ω * r * (2 * slope c s))) (-(n * (ω * r * (2 * slope c s)))) 0 (fun a => by simp only [towards, height, slope]; ring)]
  ring

theorem deriv_towards_ω (c r n ω s t : ℝ) : deriv (fun a => towards c r n a s t) ω = -(n * (1 / 2 - r * height c s t)) := by
  rw [deriv_cubic _ (towards c r n 0 s t) (-(n * (1 / 2 - r * height c s t))) 0 0 (fun a => by simp only [towards]; ring)]
  ring

theorem deriv_towards_ω' (c r n ω s t : ℝ) : deriv (fun a => towards c r n (1 - a) s t) ω = n * (1 / 2 - r * height c s t) := by
  rw [deriv_cubic _ (towards c r n 1 s t) (n * (1 / 2 - r * height c s t)) 0 0 (fun a => by simp only [towards]; ring)]
  ring

/-! ### the determinant -/

/-- a quarter of the determinant; `α` and `β` are the positions between the middle and the sides -/
def quarter (c rx ry rz ω s t : ℝ) : ℝ :=
  let α := 2 * s - 1
  let β := 2 * t - 1
  let A := (1 - ω) / 2 + ω * rx * bulge c t
  let B := (1 - ω) / 2 + ω * ry * bulge c s
  let p := 1 / 2 - rx * bulge c t
  let q := 1 / 2 - ry * bulge c s
  let h := 1 / 2 - rz * height c s t
  A * B * h + A * (ω * rz * β ^ 2 * slope c s * q) + ω ^ 2 * ry * (c / 2) * α ^ 2 * β ^ 2 * (rz * slope c s * p - rx * (c / 2) * h) +
    ω * rz * α ^ 2 * slope c t * (ω * rx * (c / 2) * β ^ 2 * q + B * p)

theorem unit_parts {t : ℝ} (ht : 0 ≤ t ∧ t ≤ 1) : 0 ≤ 2 * t * (1 - t) ∧ 2 * t * (1 - t) ≤ 1 / 2 ∧ 0 ≤ (2 * t - 1) ^ 2 ∧ (2 * t - 1) ^ 2 ≤ 1 := by
  have := mul_nonneg ht.1 (sub_nonneg.2 ht.2)
  refine ⟨by linarith, by nlinarith [sq_nonneg (2 * t - 1)], sq_nonneg _, by nlinarith⟩

theorem quarter_pos {c rx ry rz ω s t : ℝ} (hc : 0 < c) (hx : 0 < rx) (hx' : rx * c < 2 / 7) (hy : 0 < ry) (hy' : ry * c < 2 / 7) (hz : 0 < rz) (hz' : rz * c < 2 / 7)
    (hω : 0 ≤ ω ∧ ω ≤ 1) (hs : 0 ≤ s ∧ s ≤ 1) (ht : 0 ≤ t ∧ t ≤ 1) : 0 < quarter c rx ry rz ω s t := by
  obtain ⟨s1, s2, s3, s4⟩ := unit_parts hs
  obtain ⟨t1, t2, t3, t4⟩ := unit_parts ht
  have hbt : c ≤ bulge c t ∧ bulge c t ≤ 5 / 4 * c := by
    unfold bulge
    constructor <;> nlinarith
  have hbs : c ≤ bulge c s ∧ bulge c s ≤ 5 / 4 * c := by
    unfold bulge
    constructor <;> nlinarith
  have hms : 0 ≤ slope c s := by unfold slope; have := mul_nonneg hc.le s1; nlinarith
  have hmt : 0 ≤ slope c t := by unfold slope; have := mul_nonneg hc.le t1; nlinarith
  have hh : height c s t ≤ 7 / 4 * c := by
    unfold height
    generalize 2 * s * (1 - s) = a at *
    generalize 2 * t * (1 - t) = b at *
    have h1 : (1 - a) * (1 - b) + 3 / 2 * (a + b) ≤ 7 / 4 := by nlinarith [mul_nonneg (sub_nonneg.2 s2) (sub_nonneg.2 t2)]
    have := mul_le_mul_of_nonneg_left h1 hc.le
    linarith
  have hp : 0 < 1 / 2 - rx * bulge c t := by nlinarith [mul_le_mul_of_nonneg_left hbt.2 hx.le]
  have hq : 0 < 1 / 2 - ry * bulge c s := by nlinarith [mul_le_mul_of_nonneg_left hbs.2 hy.le]
  have hH : 0 < 1 / 2 - rz * height c s t := by nlinarith [mul_le_mul_of_nonneg_left hh hz.le]
  have big : ∀ r b : ℝ, 0 < r → c ≤ b → ω * r * (c / 2) < (1 - ω) / 2 + ω * r * b := by
    intro r b hr hb
    have h1 := mul_nonneg (mul_nonneg hω.1 hr.le) (sub_nonneg.2 hb)
    rcases hω.2.lt_or_eq with h | h
    · have := mul_nonneg (mul_nonneg hω.1 hr.le) hc.le
      nlinarith
    · rw [h]
      have := mul_pos hr hc
      nlinarith
  have hA := big rx (bulge c t) hx hbt.1
  have hB := big ry (bulge c s) hy hbs.1
  simp only [quarter]
  generalize (1 - ω) / 2 + ω * rx * bulge c t = A at *
  generalize (1 - ω) / 2 + ω * ry * bulge c s = B at *
  generalize 1 / 2 - rx * bulge c t = p at *
  generalize 1 / 2 - ry * bulge c s = q at *
  generalize 1 / 2 - rz * height c s t = h at *
  generalize slope c s = ms at *
  generalize slope c t = mt at *
  generalize (2 * s - 1) ^ 2 = a2 at *
  generalize (2 * t - 1) ^ 2 = b2 at *
  have hω0 := hω.1
  have hA0 : 0 ≤ ω * rx * (c / 2) := by positivity
  have hB0 : 0 ≤ ω * ry * (c / 2) := by positivity
  have hApos : 0 < A := lt_of_le_of_lt hA0 hA
  have hBpos : 0 < B := lt_of_le_of_lt hB0 hB
  have main : ω * rx * (c / 2) * (ω * ry * (c / 2)) * (a2 * b2) < A * B := by
    have h1 : a2 * b2 ≤ 1 := by nlinarith
    have h2 := mul_le_mul_of_nonneg_left h1 (mul_nonneg hA0 hB0)
    have h3 : ω * rx * (c / 2) * (ω * ry * (c / 2)) < A * B := mul_lt_mul'' hA hB hA0 hB0
    linarith
  have m1 : 0 < (A * B - ω * rx * (c / 2) * (ω * ry * (c / 2)) * (a2 * b2)) * h := mul_pos (sub_pos.2 main) hH
  have m2 : 0 ≤ A * (ω * rz * b2 * ms * q) := by positivity
  have m3 : 0 ≤ ω ^ 2 * ry * (c / 2) * a2 * b2 * (rz * ms * p) := by positivity
  have m4 : 0 ≤ ω * rz * a2 * mt * (ω * rx * (c / 2) * b2 * q + B * p) := by positivity
  have e : ω ^ 2 * ry * (c / 2) * a2 * b2 * (rz * ms * p - rx * (c / 2) * h) = ω ^ 2 * ry * (c / 2) * a2 * b2 * (rz * ms * p) - ω * rx * (c / 2) * (ω * ry * (c / 2)) * (a2 * b2) * h := by ring
  rw [e]
  linarith

/-! ### the tile -/

theorem ellips_det0 (c x y u v w : ℝ) : (jacobian ((ellipsVoid 0 (1 / 2) 1 (ellipsPoints c x y)).getD 0 ⟨[], []⟩) 3 [u, v, w]).det = 4 * quarter c x y y w u v := by
  rw [det_three]
  simp only [ellips_patch0 _ _ _ _ _ _ 0 (by omega), ellips_patch0 _ _ _ _ _ _ 1 (by omega), ellips_patch0 _ _ _ _ _ _ 2 (by omega), List.getD_cons_zero, List.getD_cons_succ,
    deriv_across_s, deriv_across_t, deriv_across_ω, deriv_across_ω', deriv_towards_s, deriv_towards_t, deriv_towards_ω, deriv_towards_ω']
  simp only [quarter]
  ring

theorem ellips_det1 (c x y u v w : ℝ) : (jacobian ((ellipsVoid 0 (1 / 2) 1 (ellipsPoints c x y)).getD 1 ⟨[], []⟩) 3 [u, v, w]).det = 4 * quarter c x y y (1 - w) u v := by
  rw [det_three]
  simp only [ellips_patch1 _ _ _ _ _ _ 0 (by omega), ellips_patch1 _ _ _ _ _ _ 1 (by omega), ellips_patch1 _ _ _ _ _ _ 2 (by omega), List.getD_cons_zero, List.getD_cons_succ,
    deriv_across_s, deriv_across_t, deriv_across_ω, deriv_across_ω', deriv_towards_s, deriv_towards_t, deriv_towards_ω, deriv_towards_ω']
  simp only [quarter]
  ring

theorem ellips_det2 (c x y u v w : ℝ) : (jacobian ((ellipsVoid 0 (1 / 2) 1 (ellipsPoints c x y)).getD 2 ⟨[], []⟩) 3 [u, v, w]).det = 4 * quarter c x y y v u w := by
  rw [det_three]
  simp only [ellips_patch2 _ _ _ _ _ _ 0 (by omega), ellips_patch2 _ _ _ _ _ _ 1 (by omega), ellips_patch2 _ _ _ _ _ _ 2 (by omega), List.getD_cons_zero, List.getD_cons_succ,
    deriv_across_s, deriv_across_t, deriv_across_ω, deriv_across_ω', deriv_towards_s, deriv_towards_t, deriv_towards_ω, deriv_towards_ω']
  simp only [quarter]
  ring

theorem ellips_det3 (c x y u v w : ℝ) : (jacobian ((ellipsVoid 0 (1 / 2) 1 (ellipsPoints c x y)).getD 3 ⟨[], []⟩) 3 [u, v, w]).det = 4 * quarter c x y y (1 - v) u w := by
  rw [det_three]
  simp only [ellips_patch3 _ _ _ _ _ _ 0 (by omega), ellips_patch3 _ _ _ _ _ _ 1 (by omega), ellips_patch3 _ _ _ _ _ _ 2 (by omega), List.getD_cons_zero, List.getD_cons_succ,
    deriv_across_s, deriv_across_t, deriv_across_ω, deriv_across_ω', deriv_towards_s, deriv_towards_t, deriv_towards_ω, deriv_towards_ω']
  simp only [quarter]
  ring

theorem ellips_det4 (c x y u v w : ℝ) : (jacobian ((ellipsVoid 0 (1 / 2) 1 (ellipsPoints c x y)).getD 4 ⟨[], []⟩) 3 [u, v, w]).det = 4 * quarter c y y x u v w := by
  rw [det_three]
  simp only [ellips_patch4 _ _ _ _ _ _ 0 (by omega), ellips_patch4 _ _ _ _ _ _ 1 (by omega), ellips_patch4 _ _ _ _ _ _ 2 (by omega), List.getD_cons_zero, List.getD_cons_succ,
    deriv_across_s, deriv_across_t, deriv_across_ω, deriv_across_ω', deriv_towards_s, deriv_towards_t, deriv_towards_ω, deriv_towards_ω']
  simp only [quarter]
  ring

theorem ellips_det5 (c x y u v w : ℝ) : (jacobian ((ellipsVoid 0 (1 / 2) 1 (ellipsPoints c x y)).getD 5 ⟨[], []⟩) 3 [u, v, w]).det = 4 * quarter c y y x (1 - u) v w := by
  rw [det_three]
  simp only [ellips_patch5 _ _ _ _ _ _ 0 (by omega), ellips_patch5 _ _ _ _ _ _ 1 (by omega), ellips_patch5 _ _ _ _ _ _ 2 (by omega), List.getD_cons_zero, List.getD_cons_succ,
    deriv_across_s, deriv_across_t, deriv_across_ω, deriv_across_ω', deriv_towards_s, deriv_towards_t, deriv_towards_ω, deriv_towards_ω']
  simp only [quarter]
  ring

theorem ellips_patches (c x y : ℝ) : ∀ P ∈ ellipsVoid 0 (1 / 2) 1 (ellipsPoints c x y), P.degrees.length = 3 ∧ (∀ r ∈ P.cps, r.length = 3) ∧
    ∃ i < 6, P = (ellipsVoid 0 (1 / 2) 1 (ellipsPoints c x y)).getD i ⟨[], []⟩ := by
  intro P hP
  obtain ⟨i, hi, rfl⟩ := List.getElem_of_mem hP
  have hl : (ellipsVoid 0 (1 / 2) 1 (ellipsPoints c x y)).length = 6 := rfl
  refine ⟨?_, ?_, i, by omega, (List.getD_eq_getElem _ _ hi).symm⟩
  · revert hP
    generalize (ellipsVoid 0 (1 / 2) 1 (ellipsPoints c x y))[i] = P
    intro hP
    simp only [ellipsVoid, List.mem_cons, List.not_mem_nil, or_false] at hP
    rcases hP with rfl | rfl | rfl | rfl | rfl | rfl <;> rfl
  · revert hP
    generalize (ellipsVoid 0 (1 / 2) 1 (ellipsPoints c x y))[i] = P
    intro hP
    simp only [ellipsVoid, List.mem_cons, List.not_mem_nil, or_false] at hP
    rcases hP with rfl | rfl | rfl | rfl | rfl | rfl <;> simp [ellipsPoints, row]

theorem radius_scaled {r : ℝ} : r * (√3 / 6) < 2 / 7 ↔ r < 4 * √3 / 7 := by
  have h : (0 : ℝ) < √3 := by positivity
  have h3 : √3 * √3 = (3 : ℝ) := Real.mul_self_sqrt (by norm_num)
  have e : (2 / 7 : ℝ) = 4 * √3 / 7 * (√3 / 6) := by linear_combination -(2 / 21) * h3
  rw [e, mul_lt_mul_iff_left₀ (by positivity)]

/-- C107: a void without rotation: every patch has a positive Jacobian determinant everywhere, if the void does not reach the sides of the cell. -/
theorem ellips_void_oriented_partial (closure : Option String) (x y : ℝ) (hx : 0 < x ∧ x < 4 * √3 / 7) (hy : 0 < y ∧ y < 4 * √3 / 7) (s : Option (List (Mat ℝ))) (T : Tile ℝ)
    (h : createEllipsVoid closure (some [[x, y, 0, 0]]) s = some T) : Oriented 3 T.splines := by
  obtain ⟨hx, hx'⟩ := hx
  obtain ⟨hy, hy'⟩ := hy
  rw [← radius_scaled] at hx' hy'
  have hc : 0 < √3 / 6 := by positivity
  simp only [createEllipsVoid, Option.getD_some, Option.ite_none_right_eq_some, Option.some.injEq] at h
  obtain ⟨-, rfl⟩ := h
  intro P hP
  simp only [assemble, ellips_points] at hP
  obtain ⟨h1, h2, i, hi, rfl⟩ := ellips_patches _ _ _ P hP
  refine oriented_three h1 h2 fun u v w hu hv hw => ?_
  have flip : ∀ {a : ℝ}, 0 ≤ a ∧ a ≤ 1 → 0 ≤ 1 - a ∧ 1 - a ≤ 1 := fun h => ⟨by linarith [h.2], by linarith [h.1]⟩
  have four : ∀ {a : ℝ}, 0 < a → 0 < 4 * a := fun h => by linarith
  rcases (by omega : i = 0 ∨ i = 1 ∨ i = 2 ∨ i = 3 ∨ i = 4 ∨ i = 5) with rfl | rfl | rfl | rfl | rfl | rfl
  · rw [ellips_det0]; exact four (quarter_pos hc hx hx' hy hy' hy hy' hw hu hv)
  · rw [ellips_det1]; exact four (quarter_pos hc hx hx' hy hy' hy hy' (flip hw) hu hv)
  · rw [ellips_det2]; exact four (quarter_pos hc hx hx' hy hy' hy hy' hv hu hw)
  · rw [ellips_det3]; exact four (quarter_pos hc hx hx' hy hy' hy hy' (flip hv) hu hw)
  · rw [ellips_det4]; exact four (quarter_pos hc hy hy' hy hy' hx hx' hu hv hw)
  · rw [ellips_det5]; exact four (quarter_pos hc hy hy' hy hy' hx hx' (flip hu) hv hw)

example : ∃ T, createEllipsVoid none (some [[1 / 3, 9 / 10, 0, 0]]) none = some T ∧ (9 / 10 : ℝ) < 4 * √3 / 7 := by
  have : (1.7 : ℝ) < √3 := Real.lt_sqrt_of_sq_lt (by norm_num)
  exact ⟨_, by simp [createEllipsVoid, checkDerivatives]; rfl, by linarith⟩

/-- The bound is sharp, and nothing checks it: with a larger radius the void sticks out of the cell, and the patch between it and the side is turned inside out. -/
theorem ellips_void_oriented_violates (closure : Option String) (x y : ℝ) (hy : 4 * √3 / 7 < y) :
    ∃ T, createEllipsVoid closure (some [[x, y, 0, 0]]) none = some T ∧ ∃ P ∈ T.splines, (jacobian P 3 [1 / 2, 1 / 2, 0]).det < 0 := by
  refine ⟨assemble (ellipsVoid 0 (1 / 2) 1 (voidPoints ellipsSphere [[x, y, 0, 0]])) (fun d => ellipsVoid 0 0 0 (voidDerivatives ellipsSphere [[x, y, 0, 0]] d)) none, ?_,
    (ellipsVoid 0 (1 / 2) 1 (ellipsPoints (√3 / 6) x y)).getD 0 ⟨[], []⟩, ?_, ?_⟩
  · simp [createEllipsVoid, checkDerivatives]
  · simp only [assemble, ellips_points]
    exact List.mem_cons_self
  · rw [ellips_det0]
    have h3 : √3 * √3 = (3 : ℝ) := Real.mul_self_sqrt (by norm_num)
    have h : (0 : ℝ) < √3 := by positivity
    simp only [quarter, bulge, height]
    norm_num
    nlinarith

end

end Splinepy.Tiles
