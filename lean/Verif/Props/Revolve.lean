import Verif.Lemma.Revolve
import Verif.Props.Create
import Mathlib.Algebra.Order.Floor.Semiring

/-!
C50: revolutions of rational splines are exact rotations about the axis.
-/
set_option linter.unusedSectionVars false
namespace Splinepy.Revolve
open Splinepy.Index (Spline)
open Splinepy.Create (dim withKnotVectors)
open Splinepy.Spec Finset

/-! ### specification -/

/-- total angle in radians: a full turn if none is given -/
noncomputable def Spec.totalAngle (angle : Option ℝ) (degree : Bool) : ℝ :=
  match angle with
  | none => 2 * Real.pi
  | some a => if degree then a * Real.pi / 180 else a

/-- coordinate `k` of the point `p` turned by `θ`: in the plane about the center, in space about the line through the center along the axis -/
noncomputable def Spec.turned (axis : Option (List ℝ)) (center : ℕ → ℝ) (θ : ℝ) (p : ℕ → ℝ) (k : ℕ) : ℝ :=
  match axis with
  | none =>
    center k + match k with
      | 0 => Real.cos θ * (p 0 - center 0) - Real.sin θ * (p 1 - center 1)
      | _ => Real.sin θ * (p 0 - center 0) + Real.cos θ * (p 1 - center 1)
  | some axis =>
    let a := fun i => axis.getD i 0 / Real.sqrt (axis.getD 0 0 ^ 2 + axis.getD 1 0 ^ 2 + axis.getD 2 0 ^ 2)
    let q := fun i => p i - center i
    let cross := match k with
      | 0 => a 1 * q 2 - a 2 * q 1
      | 1 => a 2 * q 0 - a 0 * q 2
      | _ => a 0 * q 1 - a 1 * q 0
    center k + (Real.cos θ * q k + Real.sin θ * cross + (1 - Real.cos θ) * (a 0 * q 0 + a 1 * q 1 + a 2 * q 2) * a k)

/-- number of coordinates of the result -/
def Spec.resultDim (axis : Option (List ℝ)) (n : ℕ) : ℕ :=
  match axis with
  | none => n
  | some a => a.length

/-! ### angles -/

theorem power_eq (a : ℝ) (l : ℕ) : power (Real.cos a) (Real.sin a) l = (Real.cos (l * a), Real.sin (l * a)) := by
  induction l with
  | zero => simp [power]
  | succ l ih =>
    rw [power, ih]
    have : ((l + 1 : ℕ) : ℝ) * a = a + l * a := by push_cast; ring
    rw [this, Real.cos_add, Real.sin_add]
    ext
    · simp
    · simp; ring

/-- angle at the local parameter `τ` of span `i`; `a` is half of the angle of a span -/
noncomputable def spanAngle (a : ℝ) (i : ℕ) (τ : ℝ) : ℝ :=
  (2 * i + 1) * a + Real.arctan ((2 * τ - 1) * Real.sin a / (2 * τ * (1 - τ) + (1 - 2 * τ * (1 - τ)) * Real.cos a))

theorem arctan_div {x y r : ℝ} (hx : 0 < x) (hr : 0 < r) (h : x ^ 2 + y ^ 2 = r ^ 2) :
    Real.cos (Real.arctan (y / x)) = x / r ∧ Real.sin (Real.arctan (y / x)) = y / r := by
  have hs : Real.sqrt (1 + (y / x) ^ 2) = r / x := by
    have : 1 + (y / x) ^ 2 = (r / x) ^ 2 := by field_simp; exact h
    rw [this, Real.sqrt_sq (div_pos hr hx).le]
  rw [Real.cos_arctan, Real.sin_arctan, hs]
  constructor <;> field_simp

theorem mid_pos {a τ : ℝ} (ha : 0 < Real.cos a) (h0 : 0 ≤ τ) (h1 : τ ≤ 1) : 0 < 2 * τ * (1 - τ) + (1 - 2 * τ * (1 - τ)) * Real.cos a := by
  have e : 2 * τ * (1 - τ) + (1 - 2 * τ * (1 - τ)) * Real.cos a = 2 * τ * (1 - τ) + ((1 - τ) ^ 2 + τ ^ 2) * Real.cos a := by ring
  rw [e]
  have : 0 ≤ 2 * τ * (1 - τ) := mul_nonneg (by linarith) (by linarith)
  have h3 : 0 < (1 - τ) ^ 2 + τ ^ 2 := by
    rcases eq_or_lt_of_le h0 with h | h
    · rw [← h]; norm_num
    · have := pow_pos h 2; have := sq_nonneg (1 - τ); linarith
  have := mul_pos h3 ha
  linarith

theorem den_pos' {a τ : ℝ} (ha : 0 < Real.cos a) (h0 : 0 ≤ τ) (h1 : τ ≤ 1) : 0 < (1 - τ) ^ 2 + 2 * τ * (1 - τ) * Real.cos a + τ ^ 2 := by
  have a1 : 0 ≤ 2 * τ * (1 - τ) * Real.cos a := mul_nonneg (mul_nonneg (by linarith) (by linarith)) ha.le
  rcases eq_or_lt_of_le h0 with h | h
  · rw [← h]; norm_num
  · have := pow_pos h 2
    have := sq_nonneg (1 - τ)
    linarith

/-- the rational quadratic combination of rotations is a rotation -/
theorem span_turn {a τ : ℝ} (ha : 0 < Real.cos a) (h0 : 0 ≤ τ) (h1 : τ ≤ 1) (i : ℕ) :
    ((1 - τ) ^ 2 * Real.cos (((2 * i : ℕ) : ℝ) * a) + 2 * τ * (1 - τ) * Real.cos (((2 * i + 1 : ℕ) : ℝ) * a) + τ ^ 2 * Real.cos (((2 * i + 2 : ℕ) : ℝ) * a)) /
      ((1 - τ) ^ 2 + 2 * τ * (1 - τ) * Real.cos a + τ ^ 2) = Real.cos (spanAngle a i τ) ∧
    ((1 - τ) ^ 2 * Real.sin (((2 * i : ℕ) : ℝ) * a) + 2 * τ * (1 - τ) * Real.sin (((2 * i + 1 : ℕ) : ℝ) * a) + τ ^ 2 * Real.sin (((2 * i + 2 : ℕ) : ℝ) * a)) /
      ((1 - τ) ^ 2 + 2 * τ * (1 - τ) * Real.cos a + τ ^ 2) = Real.sin (spanAngle a i τ) := by
  have hx := mid_pos ha h0 h1
  have hr := den_pos' ha h0 h1
  have hcs := Real.sin_sq_add_cos_sq a
  obtain ⟨hc, hs⟩ := arctan_div (y := (2 * τ - 1) * Real.sin a) hx hr (by linear_combination (2 * τ - 1) ^ 2 * hcs)
  have e0 : ((2 * i : ℕ) : ℝ) * a = (2 * i + 1) * a - a := by push_cast; ring
  have e1 : ((2 * i + 1 : ℕ) : ℝ) * a = (2 * i + 1) * a := by push_cast; ring
  have e2 : ((2 * i + 2 : ℕ) : ℝ) * a = (2 * i + 1) * a + a := by push_cast; ring
  unfold spanAngle
  rw [e0, e1, e2, Real.cos_sub, Real.cos_add, Real.cos_add, Real.sin_sub, Real.sin_add, Real.sin_add, hc, hs]
  constructor
  · rw [← mul_div_assoc, ← mul_div_assoc, ← sub_div]
    congr 1
    ring
  · rw [← mul_div_assoc, ← mul_div_assoc, ← add_div]
    congr 1
    ring

theorem arctan_tan' {a : ℝ} (h1 : -(Real.pi / 2) < a) (h2 : a < Real.pi / 2) : Real.arctan (Real.sin a / Real.cos a) = a := by
  rw [← Real.tan_eq_sin_div_cos, Real.arctan_tan h1 h2]

theorem spanAngle_zero {a : ℝ} (h1 : -(Real.pi / 2) < a) (h2 : a < Real.pi / 2) (i : ℕ) : spanAngle a i 0 = 2 * i * a := by
  unfold spanAngle
  have : (2 * (0 : ℝ) - 1) * Real.sin a / (2 * 0 * (1 - 0) + (1 - 2 * 0 * (1 - 0)) * Real.cos a) = -(Real.sin a / Real.cos a) := by
    ring_nf
  rw [this, Real.arctan_neg, arctan_tan' h1 h2]
  ring

theorem spanAngle_one {a : ℝ} (h1 : -(Real.pi / 2) < a) (h2 : a < Real.pi / 2) (i : ℕ) : spanAngle a i 1 = 2 * (i + 1) * a := by
  unfold spanAngle
  have : (2 * (1 : ℝ) - 1) * Real.sin a / (2 * 1 * (1 - 1) + (1 - 2 * 1 * (1 - 1)) * Real.cos a) = Real.sin a / Real.cos a := by
    ring_nf
  rw [this, arctan_tan' h1 h2]
  ring

theorem spanAngle_neg (a : ℝ) (i : ℕ) (τ : ℝ) : spanAngle (-a) i τ = -spanAngle a i τ := by
  unfold spanAngle
  rw [Real.sin_neg, Real.cos_neg, mul_neg (2 * τ - 1), neg_div, Real.arctan_neg]
  ring

theorem spanAngle_mono {a : ℝ} (ha0 : 0 ≤ a) (ha : a < Real.pi / 2) (i : ℕ) {x y : ℝ} (h0 : 0 ≤ x) (hxy : x ≤ y) (h1 : y ≤ 1) :
    spanAngle a i x ≤ spanAngle a i y := by
  have hc : 0 < Real.cos a := Real.cos_pos_of_mem_Ioo ⟨by linarith, ha⟩
  have hc1 : Real.cos a ≤ 1 := Real.cos_le_one a
  have hs : 0 ≤ Real.sin a := Real.sin_nonneg_of_nonneg_of_le_pi ha0 (by linarith)
  have hx := mid_pos hc h0 (hxy.trans h1)
  have hy := mid_pos hc (h0.trans hxy) h1
  unfold spanAngle
  have key : (2 * x - 1) * Real.sin a / (2 * x * (1 - x) + (1 - 2 * x * (1 - x)) * Real.cos a) ≤
      (2 * y - 1) * Real.sin a / (2 * y * (1 - y) + (1 - 2 * y * (1 - y)) * Real.cos a) := by
    rw [div_le_div_iff₀ hx hy]
    have hpq : 0 ≤ 1 + (2 * x - 1) * (2 * y - 1) := by nlinarith
    have e : (2 * y - 1) * (2 * x * (1 - x) + (1 - 2 * x * (1 - x)) * Real.cos a) - (2 * x - 1) * (2 * y * (1 - y) + (1 - 2 * y * (1 - y)) * Real.cos a) =
        2 * (y - x) * Real.cos a + (1 - Real.cos a) * ((y - x) * (1 + (2 * x - 1) * (2 * y - 1))) := by ring
    have h2 : 0 ≤ (2 * y - 1) * (2 * x * (1 - x) + (1 - 2 * x * (1 - x)) * Real.cos a) - (2 * x - 1) * (2 * y * (1 - y) + (1 - 2 * y * (1 - y)) * Real.cos a) := by
      rw [e]
      exact add_nonneg (mul_nonneg (by linarith) hc.le) (mul_nonneg (by linarith) (mul_nonneg (by linarith) hpq))
    nlinarith [mul_nonneg hs h2]
  have := Real.arctan_strictMono.monotone key
  linarith

/-- angle at the parameter `v` -/
noncomputable def turnAngle (a : ℝ) (n : ℕ) (v : ℝ) : ℝ := spanAngle a (min ⌊v⌋₊ (n - 1)) (v - (min ⌊v⌋₊ (n - 1) : ℕ))

theorem turnAngle_span {a : ℝ} (h1 : -(Real.pi / 2) < a) (h2 : a < Real.pi / 2) {n : ℕ} {v : ℝ} (i : ℕ) (hi : i < n) (ha : (i : ℝ) ≤ v)
    (hb : v ≤ i + 1) : spanAngle a i (v - i) = turnAngle a n v := by
  unfold turnAngle
  set m := min ⌊v⌋₊ (n - 1) with hm
  have hv0 : 0 ≤ v := (Nat.cast_nonneg i).trans ha
  have him : i ≤ m := le_min (Nat.le_floor ha) (by omega)
  rcases Nat.eq_or_lt_of_le him with h | h
  · rw [← h]
  · have hmv : (m : ℝ) ≤ v := (Nat.cast_le.2 (min_le_left _ _)).trans (Nat.floor_le hv0)
    have h3 : ((i + 1 : ℕ) : ℝ) ≤ m := by exact_mod_cast h
    have h3' : (i : ℝ) + 1 ≤ m := by exact_mod_cast h
    have h4 : v = i + 1 := by linarith
    have h5 : (m : ℝ) = ((i + 1 : ℕ) : ℝ) := by push_cast; linarith
    have h6 : m = i + 1 := by exact_mod_cast h5
    rw [h6, h4]
    have e1 : (i : ℝ) + 1 - i = 1 := by ring
    have e2 : (i : ℝ) + 1 - ((i + 1 : ℕ) : ℝ) = 0 := by push_cast; ring
    rw [e1, e2, spanAngle_one h1 h2, spanAngle_zero h1 h2]
    push_cast
    ring

theorem turnAngle_ends {a : ℝ} (h1 : -(Real.pi / 2) < a) (h2 : a < Real.pi / 2) {n : ℕ} (hn : 1 ≤ n) : turnAngle a n 0 = 0 ∧ turnAngle a n n = 2 * n * a := by
  constructor
  · rw [← turnAngle_span h1 h2 (n := n) 0 (by omega) (by simp) (by simp)]
    simp [spanAngle_zero h1 h2]
  · have hc : ((n - 1 : ℕ) : ℝ) = (n : ℝ) - 1 := by rw [Nat.cast_sub hn]; simp
    rw [← turnAngle_span h1 h2 (n := n) (n - 1) (by omega) (by rw [hc]; linarith) (by rw [hc]; linarith)]
    rw [hc, show (n : ℝ) - ((n : ℝ) - 1) = 1 by ring, spanAngle_one h1 h2, hc]
    ring

theorem turnAngle_mono {a : ℝ} (h0 : 0 ≤ a) (h2 : a < Real.pi / 2) {n : ℕ} (hn : 1 ≤ n) {x y : ℝ} (hx : 0 ≤ x) (hxy : x ≤ y) (hy : y ≤ n) :
    turnAngle a n x ≤ turnAngle a n y := by
  have h1 : -(Real.pi / 2) < a := by have := Real.pi_pos; linarith
  have bound : ∀ v : ℝ, 0 ≤ v → v ≤ n → ((min ⌊v⌋₊ (n - 1) : ℕ) : ℝ) ≤ v ∧ v ≤ ((min ⌊v⌋₊ (n - 1) : ℕ) : ℝ) + 1 := by
    intro v hv hvn
    refine ⟨(Nat.cast_le.2 (min_le_left _ _)).trans (Nat.floor_le hv), ?_⟩
    rcases Nat.lt_or_ge ⌊v⌋₊ (n - 1) with h | h
    · rw [min_eq_left h.le]; exact (Nat.lt_floor_add_one v).le
    · rw [min_eq_right h, Nat.cast_sub hn]; simpa using hvn
  have hx' := bound x hx (hxy.trans hy)
  have hy' := bound y (hx.trans hxy) hy
  unfold turnAngle
  have hij : min ⌊x⌋₊ (n - 1) ≤ min ⌊y⌋₊ (n - 1) := min_le_min_right _ (Nat.floor_mono hxy)
  rcases Nat.eq_or_lt_of_le hij with h | h
  · rw [← h]
    rw [← h] at hy'
    exact spanAngle_mono h0 h2 _ (by linarith) (by linarith) (by linarith)
  · have a1 := spanAngle_mono h0 h2 (min ⌊x⌋₊ (n - 1)) (x := x - (min ⌊x⌋₊ (n - 1) : ℕ)) (y := 1) (by linarith) (by linarith) le_rfl
    have a2 := spanAngle_mono h0 h2 (min ⌊y⌋₊ (n - 1)) (x := 0) (y := y - (min ⌊y⌋₊ (n - 1) : ℕ)) le_rfl (by linarith) (by linarith)
    rw [spanAngle_one h1 h2] at a1
    rw [spanAngle_zero h1 h2] at a2
    have hc : ((min ⌊x⌋₊ (n - 1) : ℕ) : ℝ) + 1 ≤ ((min ⌊y⌋₊ (n - 1) : ℕ) : ℝ) := by exact_mod_cast h
    have := mul_le_mul_of_nonneg_right (mul_le_mul_of_nonneg_left hc (by norm_num : (0 : ℝ) ≤ 2)) h0
    linarith

theorem turnAngle_neg (a : ℝ) (n : ℕ) (v : ℝ) : turnAngle (-a) n v = -turnAngle a n v := by
  unfold turnAngle
  exact spanAngle_neg _ _ _

/-! ### the number of knot spans -/

theorem effectiveAngle_eq (angle : Option ℝ) (degree : Bool) : effectiveAngle angle degree = Spec.totalAngle angle degree := by
  unfold effectiveAngle Spec.totalAngle radians
  cases angle with
  | none => cases degree <;> simp <;> ring
  | some a => cases degree <;> simp

theorem tolerance_pos : 0 < tolerance := by unfold tolerance; norm_num

/-- C50: the number of knot spans is at least the requested one and each of them turns by less than half a turn; a sufficient request is kept. -/
theorem knotSpans_spec (angle : ℝ) (requested : Option ℤ) :
    1 ≤ knotSpans angle requested ∧ |angle| < knotSpans angle requested * Real.pi ∧ (∀ r, requested = some r → r ≤ knotSpans angle requested) ∧
      (∀ r, requested = some r → |angle| + tolerance ≤ r * Real.pi → knotSpans angle requested = r) ∧
      (∀ m : ℤ, (∀ r, requested = some r → r ≤ m) → |angle| + tolerance ≤ m * Real.pi → knotSpans angle requested ≤ m) := by
  have hpi := Real.pi_pos
  have ht := tolerance_pos
  have habs : |tolerance| = tolerance := abs_of_pos ht
  set m := ⌈(|angle| + |tolerance|) / Real.pi⌉ with hm
  have hpos : 0 < (|angle| + |tolerance|) / Real.pi := div_pos (by rw [habs]; have := abs_nonneg angle; linarith) hpi
  have hm1 : 1 ≤ m := Int.one_le_ceil_iff.2 hpos
  have hle : (|angle| + |tolerance|) / Real.pi ≤ m := Int.le_ceil _
  rw [div_le_iff₀ hpi, habs] at hle
  have hmin : ∀ k : ℤ, |angle| + tolerance ≤ k * Real.pi → m ≤ k := by
    intro k hk
    rw [hm, Int.ceil_le, div_le_iff₀ hpi, habs]
    exact hk
  have hlt : |angle| < m * Real.pi := by linarith
  unfold knotSpans
  simp only [← hm]
  cases requested with
  | none => exact ⟨hm1, hlt, by simp, by simp, fun k _ hk => hmin k hk⟩
  | some r =>
    simp only [Option.some.injEq, forall_eq']
    by_cases h : r < m
    · rw [if_pos h]
      refine ⟨hm1, hlt, h.le, fun hr => ?_, fun k _ hk => hmin k hk⟩
      exact absurd (hmin r hr) (by omega)
    · rw [if_neg h]
      push Not at h
      refine ⟨by omega, ?_, le_rfl, fun _ => rfl, fun k hk _ => hk⟩
      have : (m : ℝ) ≤ r := by exact_mod_cast h
      have := mul_le_mul_of_nonneg_right this hpi.le
      linarith

/-! ### the axis -/

theorem norm_three (x y z : ℝ) : norm [x, y, z] = Real.sqrt (x ^ 2 + y ^ 2 + z ^ 2) := by
  unfold norm
  congr 1
  simp
  ring

/-- control points and axis of a prepared revolution -/
theorem prepareAxis_spec {s : Spline ℝ (List ℝ)} {n₀ : ℕ} (hr : Create.Spec.Rect s n₀) {axis : Option (List ℝ)} {cps : List (List ℝ)} {axis' : Option (List ℝ)}
    (h : prepareAxis s axis = some (cps, axis')) : (∀ p ∈ cps, p.length = Spec.resultDim axis n₀) ∧ cps.length = s.controlPoints.length ∧
      (∀ g j, (cps.getD g []).getD j 0 = (s.controlPoints.getD g []).getD j 0) ∧
      (axis = none → axis' = none ∧ n₀ ≠ 3) ∧ (∀ a, axis = some a → n₀ ≤ a.length ∧ tolerance < norm a ∧ axis' = some (a.map (· / norm a))) := by
  unfold prepareAxis at h
  rw [Create.dim_eq hr] at h
  cases axis with
  | none =>
    simp only at h
    split at h
    · cases h
    · cases h
      exact ⟨hr.2, rfl, fun _ _ => rfl, fun _ => ⟨rfl, by assumption⟩, by simp⟩
  | some a =>
    simp only at h
    split at h
    · cases h
    · rename_i hlen
      split at h
      · cases h
      · rename_i hnorm
        cases h
        refine ⟨?_, ?_, ?_, by simp, ?_⟩
        · intro p hp
          split at hp
          · rw [List.mem_map] at hp
            obtain ⟨q, hq, rfl⟩ := hp
            simp only [Spec.resultDim, List.length_append, hr.2 q hq, List.length_replicate]
            omega
          · simp only [Spec.resultDim, hr.2 p hp]
            omega
        · split <;> simp
        · intro g j
          split
          · rw [List.getD_eq_getElem?_getD (l := List.map _ _), List.getElem?_map]
            rcases Nat.lt_or_ge g s.controlPoints.length with hg | hg
            · rw [List.getElem?_eq_getElem hg, List.getD_eq_getElem s.controlPoints _ hg]
              simp only [Option.map_some, Option.getD_some]
              rw [Create.getD_pad]
            · rw [List.getElem?_eq_none hg, List.getD_eq_getElem?_getD (l := s.controlPoints), List.getElem?_eq_none hg]
              rfl
          · rfl
        · intro b hb
          cases hb
          exact ⟨by omega, not_le.1 hnorm, rfl⟩

theorem head_length {cps : List (List ℝ)} {D : ℕ} (h : cps ≠ []) (hc : ∀ p ∈ cps, p.length = D) :
    width cps = D := by
  cases cps with
  | nil => exact absurd rfl h
  | cons p ps => exact hc p (by simp)

/-- what `revolved` returns -/
theorem revolved_some {s s' : Spline ℝ (List ℝ)} {n₀ : ℕ} (hr : Create.Spec.Rect s n₀) {axis center : Option (List ℝ)} {angle : Option ℝ} {nSpans : Option ℤ}
    {degree : Bool} (h : revolved s axis center angle nSpans degree = some s') :
    ∃ (cps : List (List ℝ)) (ax : Option (List ℝ)) (n : ℕ), (n : ℤ) = knotSpans (Spec.totalAngle angle degree) nSpans ∧
      (∀ ctr, center = some ctr → ctr.length = Spec.resultDim axis n₀) ∧ Fits ax (Spec.resultDim axis n₀) ∧
      (Spec.resultDim axis n₀ = 2 → ax = none) ∧ (Spec.resultDim axis n₀ = 3 → ∃ a, axis = some a ∧ ax = some (a.map (· / norm a))) ∧
      (∀ p ∈ cps, p.length = Spec.resultDim axis n₀) ∧ cps.length = s.controlPoints.length ∧
      (∀ g < s.controlPoints.length, ∀ j < Spec.resultDim axis n₀, (cps.getD g []).getD j 0 = (s.controlPoints.getD g []).getD j 0 - centerAt center j) ∧
      (s.knotVectors.isSome = false → n = 1) ∧
      s' = build s ax center (Real.cos (Spec.totalAngle angle degree / (2 * n))) (Real.sin (Spec.totalAngle angle degree / (2 * n)))
        (Real.cos (Spec.totalAngle angle degree / (2 * n))) n cps := by
  unfold revolved at h
  cases hp : prepareAxis s axis with
  | none => rw [hp] at h; cases h
  | some q =>
    obtain ⟨cps, ax⟩ := q
    obtain ⟨p1, p2, p3, p4, p5⟩ := prepareAxis_spec hr hp
    rw [hp] at h
    have hne : cps ≠ [] := by intro hc; rw [hc] at p2; exact hr.1 (List.length_eq_zero_iff.1 p2.symm)
    simp only [head_length hne p1, effectiveAngle_eq] at h
    set D := Spec.resultDim axis n₀ with hD
    set α := Spec.totalAngle angle degree with hα
    have hspan := knotSpans_spec α nSpans
    set N := knotSpans α nSpans with hN
    have hNn : (N.toNat : ℤ) = N := Int.toNat_of_nonneg (by omega)
    have hNr : ((N.toNat : ℕ) : ℝ) = (N : ℝ) := by exact_mod_cast congrArg (Int.cast (R := ℝ)) hNn
    have hfits : D = 2 ∨ D = 3 → Fits (if D = 2 then none else ax) D ∧ (D = 2 → (if D = 2 then none else ax) = none) ∧
        (D = 3 → ∃ a, axis = some a ∧ (if D = 2 then none else ax) = some (a.map (· / norm a))) := by
      intro h23
      rcases h23 with h2 | h3
      · rw [if_pos h2]
        exact ⟨Or.inl ⟨rfl, h2⟩, fun _ => rfl, fun h => by omega⟩
      · rw [if_neg (by omega)]
        cases haxis : axis with
        | none =>
          have := (p4 haxis).2
          simp only [hD, Spec.resultDim, haxis] at h3
          omega
        | some a =>
          obtain ⟨_, hn, hax⟩ := p5 a haxis
          have hl : a.length = 3 := by simpa [hD, Spec.resultDim, haxis] using h3
          obtain ⟨x, y, z, rfl⟩ := length_three hl
          have hpos : 0 < norm [x, y, z] := tolerance_pos.trans hn
          refine ⟨Or.inr ⟨x / norm [x, y, z], y / norm [x, y, z], z / norm [x, y, z], hax, ?_, h3⟩, fun h => by omega, fun _ => ⟨_, rfl, hax⟩⟩
          have hsq : norm [x, y, z] ^ 2 = x ^ 2 + y ^ 2 + z ^ 2 := by rw [norm_three, Real.sq_sqrt (by positivity)]
          rw [div_pow, div_pow, div_pow, ← add_div, ← add_div, ← hsq, div_self (pow_ne_zero _ hpos.ne')]
    cases hctr : center with
    | none =>
      rw [hctr] at h
      simp only at h
      split at h
      · cases h
      · rename_i hdim
        split at h
        · cases h
        · rename_i hbez
          simp only [Option.some.injEq] at h
          obtain ⟨f1, f2, f3⟩ := hfits (by omega)
          refine ⟨cps, _, N.toNat, hNn, by simp, f1, f2, f3, p1, p2, ?_, ?_, ?_⟩
          · intro g hg j hj; rw [p3]; simp [centerAt]
          · intro hk
            have : ¬ N > 1 := fun hc => hbez ⟨by simpa using hk, hc⟩
            omega
          · rw [← h, hNr, Real.sin_pi_div_two_sub]
    | some ctr =>
      rw [hctr] at h
      simp only at h
      split at h
      · cases h
      · rename_i cps' hcen
        split at hcen
        · rename_i hcl
          cases hcen
          split at h
          · cases h
          · rename_i hdim
            split at h
            · cases h
            · rename_i hbez
              simp only [Option.some.injEq] at h
              obtain ⟨f1, f2, f3⟩ := hfits (by omega)
              refine ⟨cps.map fun p => List.zipWith (· - ·) p ctr, _, N.toNat, hNn, ?_, f1, f2, f3, ?_, ?_, ?_, ?_, ?_⟩
              · intro c hc; cases hc; exact hcl.symm
              · intro p hp
                rw [List.mem_map] at hp
                obtain ⟨q, hq, rfl⟩ := hp
                rw [List.length_zipWith, p1 q hq, ← hcl, min_self]
              · rw [List.length_map]; exact p2
              · intro g hg j hj
                rw [← p2] at hg
                have := p3 g j
                have hql := p1 cps[g] (List.getElem_mem _)
                rw [← this, List.getD_eq_getElem (l := List.map _ cps) _ (by simpa using hg), List.getElem_map, List.getD_eq_getElem cps _ hg]
                rw [List.getD_eq_getElem _ _ (by rw [List.length_zipWith, hql, ← hcl, min_self]; exact hj), List.getElem_zipWith,
                  List.getD_eq_getElem _ _ (by omega)]
                simp only [centerAt]
                rw [List.getD_eq_getElem _ _ (by omega)]
              · intro hk
                have : ¬ N > 1 := fun hc => hbez ⟨by simpa using hk, hc⟩
                omega
              · rw [← h, hNr, Real.sin_pi_div_two_sub]
        · cases hcen

/-- C50: for every valid rational spline, every axis, center, angle and requested number of knot spans for which `revolved` returns, the result is a valid
spline with one more direction of degree two, over `n` knot spans that each turn by less than half a turn, and its point at `(u, v)` is the point of the
generating spline at `u` turned about the axis through the center by an angle that depends on `v` only, goes from zero to the requested angle and never
turns back. -/
theorem revolved_evaluates {s s' : Spline ℝ (List ℝ)} {n₀ : ℕ} (hs : ValidSpline s) (hr : Create.Spec.Rect s n₀) (hw : s.weights.isSome)
    {axis center : Option (List ℝ)} {angle : Option ℝ} {nSpans : Option ℤ} {degree : Bool} (h : revolved s axis center angle nSpans degree = some s') :
    ValidSpline s' ∧ Create.Spec.Rect s' (Spec.resultDim axis n₀) ∧ s'.degrees = s.degrees ++ [2] ∧ s'.weights.isSome ∧
    (Spec.resultDim axis n₀ = 2 ∨ Spec.resultDim axis n₀ = 3) ∧
    ∃ (n : ℕ) (θ : ℝ → ℝ), (n : ℤ) = knotSpans (Spec.totalAngle angle degree) nSpans ∧ θ 0 = 0 ∧ θ n = Spec.totalAngle angle degree ∧
      (0 ≤ Spec.totalAngle angle degree → ∀ x y : ℝ, 0 ≤ x → x ≤ y → y ≤ n → θ x ≤ θ y) ∧
      (Spec.totalAngle angle degree ≤ 0 → ∀ x y : ℝ, 0 ≤ x → x ≤ y → y ≤ n → θ y ≤ θ x) ∧
      directions s' = directions s ++ [spanDirection s.knotVectors.isSome n] ∧
      ∀ u, InDomain s u → ∀ v : ℝ, 0 ≤ v → v ≤ n → InDomain s' (u ++ [v]) ∧ ∀ k < Spec.resultDim axis n₀,
        point s' (u ++ [v]) k = Spec.turned (if Spec.resultDim axis n₀ = 2 then none else axis) (centerAt center) (θ v) (point s u) k := by
  obtain ⟨ws, hws⟩ := Option.isSome_iff_exists.1 hw
  obtain ⟨cps, ax, n, hn, hctr, hf, hax2, hax3, hc, hcl, hcc, hbez, hs'⟩ := revolved_some hr h
  set D := Spec.resultDim axis n₀ with hD
  set α := Spec.totalAngle angle degree with hα
  obtain ⟨k1, k2, -, -, -⟩ := knotSpans_spec α nSpans
  rw [← hn] at k1 k2
  have hn1 : 1 ≤ n := by exact_mod_cast k1
  have hnr : (1 : ℝ) ≤ n := by exact_mod_cast hn1
  have k2' : |α| < n * Real.pi := by exact_mod_cast k2
  set rot := α / (2 * n) with hrot
  have hrot2 : 2 * n * rot = α := by rw [hrot]; field_simp
  have habs : |rot| < Real.pi / 2 := by
    rw [hrot, abs_div, abs_of_pos (by linarith : (0 : ℝ) < 2 * n), div_lt_iff₀ (by linarith)]
    calc |α| < n * Real.pi := k2'
      _ = Real.pi / 2 * (2 * n) := by ring
  have hlo := (abs_lt.1 habs).1
  have hhi := (abs_lt.1 habs).2
  have hcos : 0 < Real.cos rot := Real.cos_pos_of_mem_Ioo ⟨hlo, hhi⟩
  have hD23 : D = 2 ∨ D = 3 := by rcases hf with ⟨_, h⟩ | ⟨_, _, _, _, _, h⟩ <;> simp [h]
  have hval := build_valid hs hws hf hctr hc hcl (Real.cos rot) (Real.sin rot) (Real.cos rot) hcos n hn1 hbez
  have hdir := build_directions (axis := ax) hs (center := center) (cps := cps) (Real.cos rot) (Real.sin rot) (Real.cos rot) n
  rw [← hs'] at hval hdir
  have hends := turnAngle_ends hlo hhi hn1
  refine ⟨hval.1, ⟨?_, hval.2.2⟩, by rw [hs']; rfl, by rw [hs']; simp [build, hws], hD23, n, turnAngle rot n, hn, hends.1, hends.2.trans hrot2, ?_, ?_, hdir, ?_⟩
  · intro he
    have h1 := hval.2.1
    rw [he, hcl, List.length_nil] at h1
    have h2 : 0 < (2 * n + 1) * s.controlPoints.length := Nat.mul_pos (by omega) (List.length_pos_of_ne_nil hr.1)
    omega
  · intro hα0 x y hx hxy hy
    have : 0 ≤ rot := by rw [hrot]; exact div_nonneg hα0 (by linarith)
    exact turnAngle_mono this hhi hn1 hx hxy hy
  · intro hα0 x y hx hxy hy
    have hr0 : 0 ≤ -rot := by rw [hrot, ← neg_div]; exact div_nonneg (by linarith) (by linarith)
    have := turnAngle_mono hr0 (by linarith) hn1 hx hxy hy
    rw [turnAngle_neg, turnAngle_neg] at this
    linarith
  · intro u hu v h0 h1
    have hdom := inDomain_append s s' _ hdir hu (t := v)
      ⟨by rw [spanDirection_lower _ n hn1]; exact h0, by rw [spanDirection_upper _ n hn1 hbez]; exact h1⟩
    refine ⟨hdom, fun k hk => ?_⟩
    obtain ⟨i, hi, hiv, hvi, hpt⟩ := build_point hs hws hf hctr hc hcl (Real.cos rot) (Real.sin rot) (Real.cos rot) hcos n hn1 hbez hu h0 h1
    rw [hs', hpt k hk]
    simp only [power_eq]
    obtain ⟨e1, e2⟩ := span_turn hcos (sub_nonneg.2 hiv) (by linarith : v - i ≤ 1) i
    rw [e1, e2, turnAngle_span hlo hhi i hi hiv hvi]
    generalize turnAngle rot n v = θ
    have hval' : ∀ j < D, value s (fun g => (cps.getD g []).getD j 0) u = point s u j - centerAt center j := by
      intro j hj
      have := value_affine hs hu 1 (-centerAt center j) (fun i => (s.controlPoints.getD i []).getD j 0) (fun g => (cps.getD g []).getD j 0)
        (fun g hg => by rw [hcc g (by rw [hs.net]; exact hg) j hj]; ring)
      rw [this]
      unfold point
      ring
    rcases hD23 with h2 | h3
    · rw [if_pos h2, hax2 h2]
      rw [h2] at hk hval'
      rw [h2]
      have e : (List.range 2).map (fun j => value s (fun g => (cps.getD g []).getD j 0) u) =
          [point s u 0 - centerAt center 0, point s u 1 - centerAt center 1] := by
        rw [← hval' 0 (by omega), ← hval' 1 (by omega)]; rfl
      rw [e]
      have : k = 0 ∨ k = 1 := by omega
      rcases this with rfl | rfl <;> simp [rotate, Spec.turned]
    · obtain ⟨a, ha, hax⟩ := hax3 h3
      rw [if_neg (by omega), hax, ha]
      rw [h3] at hk hval'
      rw [h3]
      have hal : a.length = 3 := by rw [hD, ha] at h3; exact h3
      obtain ⟨x, y, z, rfl⟩ := length_three hal
      have e : (List.range 3).map (fun j => value s (fun g => (cps.getD g []).getD j 0) u) =
          [point s u 0 - centerAt center 0, point s u 1 - centerAt center 1, point s u 2 - centerAt center 2] := by
        rw [← hval' 0 (by omega), ← hval' 1 (by omega), ← hval' 2 (by omega)]; rfl
      rw [e, norm_three]
      have : k = 0 ∨ k = 1 ∨ k = 2 := by omega
      rcases this with rfl | rfl | rfl <;> simp [rotate, Spec.turned]

/-- C50: turning in the plane keeps the distance to the center. -/
theorem turned_distance_plane (center : ℕ → ℝ) (θ : ℝ) (p : ℕ → ℝ) :
    (Spec.turned none center θ p 0 - center 0) ^ 2 + (Spec.turned none center θ p 1 - center 1) ^ 2 = (p 0 - center 0) ^ 2 + (p 1 - center 1) ^ 2 := by
  have := Real.sin_sq_add_cos_sq θ
  simp only [Spec.turned]
  linear_combination ((p 0 - center 0) ^ 2 + (p 1 - center 1) ^ 2) * this

/-- C50: turning in space keeps the distance to the center and the component along the axis, therefore also the distance to the axis. -/
theorem turned_distance_space (axis : List ℝ) (ha : 0 < axis.getD 0 0 ^ 2 + axis.getD 1 0 ^ 2 + axis.getD 2 0 ^ 2) (center : ℕ → ℝ) (θ : ℝ) (p : ℕ → ℝ) :
    (Spec.turned (some axis) center θ p 0 - center 0) ^ 2 + (Spec.turned (some axis) center θ p 1 - center 1) ^ 2 +
        (Spec.turned (some axis) center θ p 2 - center 2) ^ 2 = (p 0 - center 0) ^ 2 + (p 1 - center 1) ^ 2 + (p 2 - center 2) ^ 2 ∧
      axis.getD 0 0 * (Spec.turned (some axis) center θ p 0 - center 0) + axis.getD 1 0 * (Spec.turned (some axis) center θ p 1 - center 1) +
        axis.getD 2 0 * (Spec.turned (some axis) center θ p 2 - center 2) =
        axis.getD 0 0 * (p 0 - center 0) + axis.getD 1 0 * (p 1 - center 1) + axis.getD 2 0 * (p 2 - center 2) := by
  have hcs := Real.sin_sq_add_cos_sq θ
  simp only [Spec.turned]
  set r := Real.sqrt (axis.getD 0 0 ^ 2 + axis.getD 1 0 ^ 2 + axis.getD 2 0 ^ 2) with hr
  have hr0 : 0 < r := Real.sqrt_pos.2 ha
  have hr2 : r ^ 2 = axis.getD 0 0 ^ 2 + axis.getD 1 0 ^ 2 + axis.getD 2 0 ^ 2 := Real.sq_sqrt ha.le
  obtain ⟨a, e0⟩ : ∃ a, axis.getD 0 0 = a * r := ⟨axis.getD 0 0 / r, by field_simp⟩
  obtain ⟨b, e1⟩ : ∃ b, axis.getD 1 0 = b * r := ⟨axis.getD 1 0 / r, by field_simp⟩
  obtain ⟨d, e2⟩ : ∃ d, axis.getD 2 0 = d * r := ⟨axis.getD 2 0 / r, by field_simp⟩
  rw [e0, e1, e2] at hr2 ⊢
  have hu : a ^ 2 + b ^ 2 + d ^ 2 = 1 := by
    have : r ^ 2 * (a ^ 2 + b ^ 2 + d ^ 2 - 1) = 0 := by linear_combination -hr2
    rcases mul_eq_zero.1 this with h | h
    · exact absurd h (pow_ne_zero _ hr0.ne')
    · linarith
  rw [mul_div_cancel_right₀ _ hr0.ne', mul_div_cancel_right₀ _ hr0.ne', mul_div_cancel_right₀ _ hr0.ne']
  generalize p 0 - center 0 = x
  generalize p 1 - center 1 = y
  generalize p 2 - center 2 = z
  generalize Real.cos θ = c at *
  generalize Real.sin θ = s at *
  constructor
  · ring_nf
    have h1 : s ^ 2 = 1 - c ^ 2 := by linarith
    have h2 : d ^ 2 = 1 - a ^ 2 - b ^ 2 := by linarith
    have h3 : d ^ 4 = (1 - a ^ 2 - b ^ 2) ^ 2 := by rw [← h2]; ring
    have h4 : d ^ 3 = d * (1 - a ^ 2 - b ^ 2) := by rw [← h2]; ring
    simp only [h1, h3, h4, h2]
    ring
  · linear_combination r * (1 - c) * (a * x + b * y + d * z) * hu

/-- C50: `revolved` raises exactly if no axis is given in space, the axis has fewer coordinates than the spline or is too short, the center does not fit,
the result is neither in the plane nor in space, or a Bezier type would need more than one knot span. -/
theorem revolved_rejects_iff {s : Spline ℝ (List ℝ)} {n₀ : ℕ} (hr : Create.Spec.Rect s n₀) (axis center : Option (List ℝ)) (angle : Option ℝ)
    (nSpans : Option ℤ) (degree : Bool) : revolved s axis center angle nSpans degree = none ↔
      (axis = none ∧ n₀ = 3) ∨ (∃ a, axis = some a ∧ (a.length < n₀ ∨ norm a ≤ tolerance)) ∨
      (∃ c, center = some c ∧ c.length ≠ Spec.resultDim axis n₀) ∨ (Spec.resultDim axis n₀ ≠ 2 ∧ Spec.resultDim axis n₀ ≠ 3) ∨
      (s.knotVectors = none ∧ 1 < knotSpans (Spec.totalAngle angle degree) nSpans) := by
  unfold revolved
  cases hp : prepareAxis s axis with
  | none =>
    simp only [true_iff]
    unfold prepareAxis at hp
    rw [Create.dim_eq hr] at hp
    cases axis with
    | none =>
      simp only at hp
      split at hp
      · left; exact ⟨rfl, by assumption⟩
      · cases hp
    | some a =>
      simp only at hp
      split at hp
      · right; left; exact ⟨a, rfl, Or.inl (by omega)⟩
      · split at hp
        · right; left; exact ⟨a, rfl, Or.inr (by assumption)⟩
        · cases hp
  | some q =>
    obtain ⟨cps, ax⟩ := q
    obtain ⟨p1, p2, p3, p4, p5⟩ := prepareAxis_spec hr hp
    have hne : cps ≠ [] := by intro hc; rw [hc] at p2; exact hr.1 (List.length_eq_zero_iff.1 p2.symm)
    simp only [head_length hne p1, effectiveAngle_eq]
    have q1 : ¬ (axis = none ∧ n₀ = 3) := fun h => (p4 h.1).2 h.2
    have q2 : ¬ ∃ a, axis = some a ∧ (a.length < n₀ ∨ norm a ≤ tolerance) := by
      rintro ⟨a, ha, h | h⟩
      · have := (p5 a ha).1; omega
      · have := (p5 a ha).2.1; linarith
    simp only [q1, q2, false_or]
    have hlast : ∀ (cps : List (List ℝ)) (ctr : Option (List ℝ)), (if Spec.resultDim axis n₀ ≠ 2 ∧ Spec.resultDim axis n₀ ≠ 3 then none
        else if s.knotVectors.isNone = true ∧ knotSpans (Spec.totalAngle angle degree) nSpans > 1 then none
        else some (build s (if Spec.resultDim axis n₀ = 2 then none else ax) ctr
          (Real.cos (Spec.totalAngle angle degree / (2 * (knotSpans (Spec.totalAngle angle degree) nSpans : ℝ))))
          (Real.sin (Spec.totalAngle angle degree / (2 * (knotSpans (Spec.totalAngle angle degree) nSpans : ℝ))))
          (Real.sin (Real.pi / 2 - Spec.totalAngle angle degree / (2 * (knotSpans (Spec.totalAngle angle degree) nSpans : ℝ))))
          (knotSpans (Spec.totalAngle angle degree) nSpans).toNat cps)) = none ↔
        (Spec.resultDim axis n₀ ≠ 2 ∧ Spec.resultDim axis n₀ ≠ 3) ∨ (s.knotVectors = none ∧ 1 < knotSpans (Spec.totalAngle angle degree) nSpans) := by
      intro cps ctr
      split
      · rename_i h; simp [h]
      · rename_i h1
        split
        · rename_i h; rw [Option.isNone_iff_eq_none] at h; simp [h.1, h.2]
        · rename_i h2
          rw [Option.isNone_iff_eq_none] at h2
          constructor
          · intro h; cases h
          · rintro (h | h)
            · exact absurd h h1
            · exact absurd h h2
    cases center with
    | none =>
      simp only [reduceCtorEq, false_and, exists_false, false_or]
      exact hlast cps none
    | some c =>
      simp only
      by_cases hc : Spec.resultDim axis n₀ = c.length
      · simp only [hc, if_true]
        rw [← hc]
        rw [hlast]
        simp [hc]
      · rw [if_neg hc]
        simp only [true_iff]
        left
        exact ⟨c, rfl, fun h => hc h.symm⟩

/-- a NURBS line in the plane can be revolved by any angle -/
example (angle : ℝ) (n : ℤ) (degree : Bool) : ∃ s', revolved ⟨[1], some [[0, 0, 1, 1]], some [1, 1], [[1, 0], [2, 0]]⟩ none none (some angle) (some n) degree = some s' := by
  have hr : Create.Spec.Rect (⟨[1], some [[0, 0, 1, 1]], some [1, 1], [[1, 0], [2, 0]]⟩ : Spline ℝ (List ℝ)) 2 := ⟨by simp, by simp⟩
  apply Option.ne_none_iff_exists'.1
  rw [Ne, revolved_rejects_iff hr]
  simp [Spec.resultDim]

/-- an oblique axis -/
example : (0 : ℝ) < ([1, 2, 2] : List ℝ).getD 0 0 ^ 2 + ([1, 2, 2] : List ℝ).getD 1 0 ^ 2 + ([1, 2, 2] : List ℝ).getD 2 0 ^ 2 := by norm_num

end Splinepy.Revolve
