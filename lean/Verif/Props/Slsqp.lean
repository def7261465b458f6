import Verif.Model.Slsqp
import Mathlib.Tactic.Ring
import Mathlib.Tactic.Linarith
import Mathlib.Tactic.FieldSimp
import Mathlib.Tactic.NormNum
import Mathlib.Tactic.Positivity
import Mathlib.Tactic.Push
import Mathlib.Tactic.LinearCombination
import Mathlib.Tactic.ByContra
import Mathlib.Data.List.GetD

/-!
C131: the fallback search of `proximities` is finite, stays inside of the bounds, and works with positive definite matrices. The model is `Verif/Model/Slsqp.lean`.
-/

namespace Splinepy.Slsqp

variable {K : Type} [Field K] [LinearOrder K] [IsStrictOrderedRing K]

/-! ### Specification -/

/-- the point lies in the box -/
def Spec.Inside (lo hi x : List K) : Prop :=
  x.length = lo.length ∧ ∀ i < lo.length, lo.getD i 0 ≤ x.getD i 0 ∧ x.getD i 0 ≤ hi.getD i 0

/-- `x' L D L' x` for the packed factors -/
def Spec.quad : Factors K → List K → K
  | (d, col) :: l, x :: xs => d * (x + (List.zipWith (· * ·) col xs).sum) ^ 2 + Spec.quad l xs
  | _, _ => 0

/-- `L D L'` is positive definite -/
def Spec.PositiveDefinite (n : ℕ) (l : Factors K) : Prop :=
  ∀ x : List K, x.length = n → (∃ i, x.getD i 0 ≠ 0) → 0 < Spec.quad l x

/-- `slsqp` asks for a further evaluation of the objective or of its gradient -/
def Spec.Asks (s : State K) : Prop := s.mode = 1 ∨ s.mode = -1

/-! ### Lists as vectors -/

omit [IsStrictOrderedRing K] [LinearOrder K] in
theorem dot_cons (a b : K) (x y : List K) : dot (a :: x) (b :: y) = a * b + dot x y := by simp [dot]

omit [IsStrictOrderedRing K] [LinearOrder K] in
theorem dot_nil (y : List K) : dot ([] : List K) y = 0 := by simp [dot]

omit [IsStrictOrderedRing K] [LinearOrder K] in
theorem dot_comm (x y : List K) : dot x y = dot y x := by
  unfold dot
  rw [List.zipWith_comm]
  congr 2
  funext a b
  ring

omit [IsStrictOrderedRing K] [LinearOrder K] in
theorem axpy_cons (c a b : K) (x y : List K) : axpy c (a :: x) (b :: y) = (b + c * a) :: axpy c x y := by simp [axpy]

omit [IsStrictOrderedRing K] [LinearOrder K] in
theorem axpy_length (c : K) (x y : List K) (h : x.length = y.length) : (axpy c x y).length = y.length := by simp [axpy, h]

omit [IsStrictOrderedRing K] [LinearOrder K] in
theorem axpy_getD (c : K) (x y : List K) (h : x.length = y.length) (i : ℕ) :
    (axpy c x y).getD i 0 = y.getD i 0 + c * x.getD i 0 := by
  by_cases hi : i < y.length
  · have hi' : i < x.length := h ▸ hi
    have : i < (axpy c x y).length := by rw [axpy_length c x y h]; exact hi
    rw [List.getD_eq_getElem _ _ this, List.getD_eq_getElem _ _ hi, List.getD_eq_getElem _ _ hi']
    simp [axpy]
  · have hi' : ¬ i < x.length := h ▸ hi
    rw [List.getD_eq_default _ _ (by rw [axpy_length c x y h]; omega), List.getD_eq_default _ _ (by omega), List.getD_eq_default _ _ (by omega)]
    ring

omit [IsStrictOrderedRing K] [LinearOrder K] in
theorem dot_axpy (c : K) : ∀ (x y w : List K), x.length = y.length → dot (axpy c x y) w = dot y w + c * dot x w
  | [], [], w, _ => by simp [axpy, dot]
  | a :: x, b :: y, [], _ => by simp [dot]
  | a :: x, b :: y, d :: w, h => by
    rw [axpy_cons, dot_cons, dot_cons, dot_cons, dot_axpy c x y w (by simpa using h)]
    ring

omit [IsStrictOrderedRing K] [LinearOrder K] in
theorem dot_axpy' (c : K) (x y w : List K) (h : x.length = y.length) : dot w (axpy c x y) = dot w y + c * dot w x := by
  rw [dot_comm, dot_axpy c x y w h, dot_comm y, dot_comm x]

omit [IsStrictOrderedRing K] [LinearOrder K] in
theorem scal_length (c : K) (x : List K) : (scal c x).length = x.length := by simp [scal]

omit [IsStrictOrderedRing K] [LinearOrder K] in
theorem scal_getD (c : K) (x : List K) (i : ℕ) : (scal c x).getD i 0 = c * x.getD i 0 := by
  by_cases hi : i < x.length
  · rw [List.getD_eq_getElem _ _ (by rw [scal_length]; exact hi), List.getD_eq_getElem _ _ hi]
    simp [scal]
  · rw [List.getD_eq_default _ _ (by rw [scal_length]; omega), List.getD_eq_default _ _ (by omega)]
    ring

/-! ### The factors -/

/-- each column has as many entries below the diagonal as there are columns to its right -/
def Shape : Factors K → Prop
  | [] => True
  | (_, col) :: l => col.length = l.length ∧ Shape l

/-- all entries of the diagonal are positive -/
def Pos (l : Factors K) : Prop := ∀ c ∈ l, 0 < c.1

/-- `y' L D L' x` -/
def bil : Factors K → List K → List K → K
  | (d, col) :: l, y :: ys, x :: xs => d * (y + dot col ys) * (x + dot col xs) + bil l ys xs
  | _, _, _ => 0

omit [IsStrictOrderedRing K] [LinearOrder K] in
theorem bil_self : ∀ (l : Factors K) (x : List K), bil l x x = Spec.quad l x
  | [], _ => by simp [bil, Spec.quad]
  | (d, col) :: l, [] => by simp [bil, Spec.quad]
  | (d, col) :: l, x :: xs => by
    rw [bil, Spec.quad, bil_self l xs]
    unfold dot
    ring

omit [IsStrictOrderedRing K] [LinearOrder K] in
theorem mulLt_length : ∀ (l : Factors K) (x : List K), x.length = l.length → (mulLt l x).length = l.length
  | [], [], _ => rfl
  | (d, col) :: l, x :: xs, h => by
    rw [mulLt, List.length_cons, mulLt_length l xs (by simpa using h), List.length_cons]

omit [IsStrictOrderedRing K] [LinearOrder K] in
theorem mulD_length (l : Factors K) (x : List K) (h : x.length = l.length) : (mulD l x).length = l.length := by simp [mulD, h]

omit [IsStrictOrderedRing K] [LinearOrder K] in
theorem mulL_length : ∀ (l : Factors K) (x : List K), Shape l → x.length = l.length → (mulL l x).length = l.length
  | [], [], _, _ => rfl
  | (d, col) :: l, x :: xs, hs, h => by
    have := mulL_length l xs hs.2 (by simpa using h)
    rw [mulL, List.length_cons, axpy_length _ _ _ (by rw [this]; exact hs.1), this, List.length_cons]

omit [IsStrictOrderedRing K] [LinearOrder K] in
theorem product_length (l : Factors K) (x : List K) (hs : Shape l) (h : x.length = l.length) :
    (mulL l (mulD l (mulLt l x))).length = l.length :=
  mulL_length l _ hs (by rw [mulD_length _ _ (mulLt_length l x h)])

omit [IsStrictOrderedRing K] [LinearOrder K] in
theorem dot_mulL : ∀ (l : Factors K) (y v : List K), Shape l → y.length = l.length → v.length = l.length →
    dot y (mulL l v) = dot (mulLt l y) v
  | [], [], [], _, _, _ => rfl
  | (d, col) :: l, y :: ys, v :: vs, hs, hy, hv => by
    have h1 : ys.length = l.length := by simpa using hy
    have h2 : vs.length = l.length := by simpa using hv
    rw [mulL, mulLt, dot_cons, dot_cons, dot_axpy' _ _ _ _ (by rw [mulL_length l vs hs.2 h2]; exact hs.1), dot_mulL l ys vs hs.2 h1 h2, dot_comm ys col]
    ring

omit [IsStrictOrderedRing K] [LinearOrder K] in
theorem dot_mulD : ∀ (l : Factors K) (y x : List K), y.length = l.length → x.length = l.length →
    dot (mulLt l y) (mulD l (mulLt l x)) = bil l y x
  | [], [], [], _, _ => by simp [mulLt, dot, bil]
  | (d, col) :: l, y :: ys, x :: xs, hy, hx => by
    have := dot_mulD l ys xs (by simpa using hy) (by simpa using hx)
    rw [mulLt, mulLt]
    change dot _ (_ :: mulD l (mulLt l xs)) = _
    rw [dot_cons, this, bil]
    ring

omit [IsStrictOrderedRing K] [LinearOrder K] in
/-- `y' v = y' L D L' x` for the product of the code -/
theorem dot_product (l : Factors K) (y x : List K) (hs : Shape l) (hy : y.length = l.length) (hx : x.length = l.length) :
    dot y (mulL l (mulD l (mulLt l x))) = bil l y x := by
  rw [dot_mulL l y _ hs hy (by rw [mulD_length _ _ (mulLt_length l x hx)]), dot_mulD l y x hy hx]

omit [IsStrictOrderedRing K] [LinearOrder K] in
theorem bil_symm : ∀ (l : Factors K) (y x : List K), bil l y x = bil l x y
  | [], _, _ => by simp [bil]
  | (d, col) :: l, [], _ => by cases ‹List K› <;> simp [bil]
  | (d, col) :: l, _ :: _, [] => by simp [bil]
  | (d, col) :: l, y :: ys, x :: xs => by rw [bil, bil, bil_symm l ys xs]; ring

omit [IsStrictOrderedRing K] [LinearOrder K] in
theorem bil_axpy (c : K) : ∀ (l : Factors K) (x y z : List K), x.length = l.length → y.length = l.length → z.length = l.length →
    bil l (axpy c x y) z = bil l y z + c * bil l x z
  | [], _, _, _, _, _, _ => by simp [bil]
  | (d, col) :: l, x :: xs, y :: ys, z :: zs, hx, hy, hz => by
    have h1 : xs.length = l.length := by simpa using hx
    have h2 : ys.length = l.length := by simpa using hy
    have h3 : zs.length = l.length := by simpa using hz
    rw [axpy_cons, bil, bil, bil, bil_axpy c l xs ys zs h1 h2 h3, dot_axpy' _ _ _ _ (by rw [h1, h2])]
    ring

omit [IsStrictOrderedRing K] [LinearOrder K] in
theorem quad_axpy (c : K) (l : Factors K) (x y : List K) (hx : x.length = l.length) (hy : y.length = l.length) :
    Spec.quad l (axpy c x y) = Spec.quad l y + 2 * c * bil l y x + c ^ 2 * Spec.quad l x := by
  have hl : (axpy c x y).length = l.length := by rw [axpy_length _ _ _ (by rw [hx, hy]), hy]
  rw [← bil_self, ← bil_self, ← bil_self, bil_axpy c l x y _ hx hy hl, bil_symm l y, bil_symm l x, bil_axpy c l x y _ hx hy hy, bil_axpy c l x y _ hx hy hx,
    bil_symm l x y]
  ring

theorem quad_nonneg : ∀ (l : Factors K) (x : List K), Pos l → 0 ≤ Spec.quad l x
  | [], _, _ => by simp [Spec.quad]
  | (d, col) :: l, [], _ => by simp [Spec.quad]
  | (d, col) :: l, x :: xs, hp => by
    rw [Spec.quad]
    have h1 : 0 < d := hp (d, col) (by simp)
    have h2 := quad_nonneg l xs (fun c hc => hp c (List.mem_cons_of_mem _ hc))
    positivity

theorem quad_zero : ∀ (l : Factors K) (x : List K), Pos l → x.length = l.length → Spec.quad l x = 0 → ∀ i, x.getD i 0 = 0
  | [], [], _, _, _, i => by simp
  | (d, col) :: l, x :: xs, hp, hl, h, i => by
    have h1 : 0 < d := hp (d, col) (by simp)
    have hp' : Pos l := fun c hc => hp c (List.mem_cons_of_mem _ hc)
    have h2 := quad_nonneg l xs hp'
    rw [Spec.quad] at h
    have h3 : 0 ≤ d * (x + (List.zipWith (· * ·) col xs).sum) ^ 2 := by positivity
    have h4 : Spec.quad l xs = 0 := by linarith
    have h5 : d * (x + (List.zipWith (· * ·) col xs).sum) ^ 2 = 0 := by linarith
    have h6 : ∀ i, xs.getD i 0 = 0 := quad_zero l xs hp' (by simpa using hl) h4
    have h7 : (List.zipWith (· * ·) col xs).sum = 0 := by
      have : ∀ (col xs : List K), (∀ i, xs.getD i 0 = 0) → (List.zipWith (· * ·) col xs).sum = 0 := by
        intro col
        induction col with
        | nil => intro xs _; simp
        | cons a col ih =>
          intro xs hxs
          cases xs with
          | nil => simp
          | cons b xs =>
            have hb : b = 0 := by simpa using hxs 0
            rw [List.zipWith_cons_cons, List.sum_cons, ih xs (fun i => by simpa using hxs (i + 1)), hb]
            ring
      exact this col xs h6
    rw [h7, add_zero] at h5
    have h8 : x = 0 := by
      rcases mul_eq_zero.1 h5 with h | h
      · exact absurd h h1.ne'
      · exact pow_eq_zero_iff (two_ne_zero) |>.1 h
    cases i with
    | zero => simpa using h8
    | succ i => simpa using h6 i

/-- Positive entries of `D` make `L D L'` positive definite. -/
theorem pos_definite (l : Factors K) (hp : Pos l) : Spec.PositiveDefinite l.length l := by
  rintro x hx ⟨i, hi⟩
  rcases (quad_nonneg l x hp).lt_or_eq with h | h
  · exact h
  · exact absurd (quad_zero l x hp hx h.symm i) hi

/-! ### `ldl` -/

/-- the values of `tp` in a positive update -/
def steps (t : K) : Factors K → List K → List K
  | (d, col) :: l, v :: z => (t + v * v / d) :: steps (t + v * v / d) l (axpy (-v) col z)
  | _, _ => []

omit [IsStrictOrderedRing K] in
theorem update_steps : ∀ (l : Factors K) (t : K) (z : List K), update t (some (steps t l z)) l z = update t none l z
  | [], t, z => by simp [update]
  | (d, col) :: l, t, [] => by simp [update]
  | (d, col) :: l, t, v :: z => by
    have h : t + v / d * v = t + v * v / d := by ring
    rw [update, update, steps]
    dsimp only [List.headD_cons, Option.map_some, List.tail_cons, Option.map_none]
    rw [h, update_steps l]
    rfl

omit [IsStrictOrderedRing K] [LinearOrder K] in
theorem backward_steps (T : K) : ∀ (l : Factors K) (z : List K),
    (backward T l z).1 = steps (backward T l z).2 l z ∧ (backward T l z).2 = T - forward l z
  | [], z => by simp [backward, steps, forward]
  | (d, col) :: l, [] => by simp [backward, steps, forward]
  | (d, col) :: l, v :: z => by
    have h := backward_steps T l (axpy (-v) col z)
    rw [backward, steps, forward]
    dsimp only
    rw [sub_add_cancel, ← h.1]
    refine ⟨rfl, ?_⟩
    rw [h.2]
    ring

theorem backward_le (T : K) : ∀ (l : Factors K) (z : List K), Pos l →
    (backward T l z).2 ≤ T ∧ ∀ a ∈ (backward T l z).1, a ≤ T
  | [], z, _ => by simp [backward]
  | (d, col) :: l, [], _ => by simp [backward]
  | (d, col) :: l, v :: z, hp => by
    have h := backward_le T l (axpy (-v) col z) (fun c hc => hp c (List.mem_cons_of_mem _ hc))
    have hd : 0 < d := hp (d, col) (by simp)
    have : 0 ≤ v * v / d := div_nonneg (mul_self_nonneg v) hd.le
    rw [backward]
    dsimp only
    refine ⟨by linarith [h.1], fun a ha => ?_⟩
    rcases List.mem_cons.1 ha with rfl | ha
    · exact h.1
    · exact h.2 a ha

omit [IsStrictOrderedRing K] in
/-- the two ways to compute a column are the same -/
theorem column_eq (d t v : K) (hd : d ≠ 0) (htp : t + v * v / d ≠ 0) : ∀ (col z : List K), col.length = z.length →
    List.zipWith (fun u zj => t / (t + v * v / d) * u + v / d / (t + v * v / d) * zj) col z =
      axpy (v / d / (t + v * v / d)) (axpy (-v) col z) col
  | [], [], _ => by simp [axpy]
  | a :: col, b :: z, h => by
    have h1 : d * t + v * v ≠ 0 := by
      intro h
      apply htp
      field_simp
      linear_combination h
    rw [List.zipWith_cons_cons, axpy_cons, axpy_cons, column_eq d t v hd htp col z (by simpa using h)]
    congr 1
    have : t + v * v / d = (d * t + v * v) / d := by field_simp
    rw [this]
    have h2 : t * d + v ^ 2 ≠ 0 := by rwa [show t * d + v ^ 2 = d * t + v * v by ring]
    have h3 : d * t + v ^ 2 ≠ 0 := by rwa [show d * t + v ^ 2 = d * t + v * v by ring]
    field_simp
    ring

/-- The update adds `z z' / t`. -/
theorem update_spec : ∀ (l : Factors K) (t : K) (z : List K), Shape l → Pos l → z.length = l.length →
    (0 < t ∨ (t < 0 ∧ ∀ a ∈ steps t l z, a < 0)) →
    Shape (update t none l z) ∧ Pos (update t none l z) ∧ (update t none l z).length = l.length ∧
      ∀ x : List K, x.length = l.length → Spec.quad (update t none l z) x = Spec.quad l x + 1 / t * dot z x ^ 2
  | [], t, z, _, hp, hz, _ => by
    rw [update]
    · refine ⟨trivial, hp, rfl, fun x hx => ?_⟩
      have : z = [] := List.length_eq_zero_iff.1 hz
      subst this
      simp [Spec.quad, dot]
    · simp
  | (d, col) :: l, t, v :: z, hs, hp, hz, ht => by
    have hd : 0 < d := hp (d, col) (by simp)
    have hp' : Pos l := fun c hc => hp c (List.mem_cons_of_mem _ hc)
    have hz' : z.length = l.length := by simpa using hz
    have hcz : col.length = z.length := by rw [hs.1, hz']
    have hl' : (axpy (-v) col z).length = l.length := by rw [axpy_length _ _ _ hcz, hz']
    have hq : 0 ≤ v * v / d := div_nonneg (mul_self_nonneg v) hd.le
    have heq : t + v / d * v = t + v * v / d := by ring
    have ht' : 0 < t + v * v / d ∨ (t + v * v / d < 0 ∧ ∀ a ∈ steps (t + v * v / d) l (axpy (-v) col z), a < 0) := by
      rcases ht with h | ⟨_, h⟩
      · left; linarith
      · right
        exact ⟨h _ (by rw [steps]; simp), fun a ha => h a (by rw [steps]; exact List.mem_cons_of_mem _ ha)⟩
    have htne : t ≠ 0 := by rcases ht with h | h; exacts [h.ne', h.1.ne]
    have htpne : t + v * v / d ≠ 0 := by rcases ht' with h | h; exacts [h.ne', h.1.ne]
    have halpha : 0 < (t + v * v / d) / t := by
      rcases ht with h | h
      · rcases ht' with h' | h'
        · exact div_pos h' h
        · linarith [h'.1]
      · rcases ht' with h' | h'
        · exact absurd (h.2 _ (by rw [steps]; simp)) (not_lt.2 h'.le)
        · exact div_pos_of_neg_of_neg h'.1 h.1
    obtain ⟨i1, i2, i3, i4⟩ := update_spec l (t + v * v / d) (axpy (-v) col z) hs.2 hp' hl' ht'
    have hcol : (if (t + v * v / d) / t > 4 then List.zipWith (fun u zj => t / (t + v * v / d) * u + v / d / (t + v * v / d) * zj) col z
        else axpy (v / d / (t + v * v / d)) (axpy (-v) col z) col) = axpy (v / d / (t + v * v / d)) (axpy (-v) col z) col := by
      split
      · exact column_eq d t v hd.ne' htpne col z hcz
      · rfl
    have hu : update t none ((d, col) :: l) (v :: z) = ((t + v * v / d) / t * d, axpy (v / d / (t + v * v / d)) (axpy (-v) col z) col) ::
        update (t + v * v / d) none l (axpy (-v) col z) := by
      rw [update]
      dsimp only [Option.map_none]
      rw [heq, hcol]
    rw [hu]
    refine ⟨⟨?_, i1⟩, ?_, ?_, ?_⟩
    · rw [axpy_length _ _ _ (by rw [hl', hs.1]), i3, hs.1]
    · intro c hc
      rcases List.mem_cons.1 hc with rfl | hc
      · exact mul_pos halpha hd
      · exact i2 c hc
    · rw [List.length_cons, i3, List.length_cons]
    · intro x hx
      cases x with
      | nil => simp at hx
      | cons x xs =>
        have hxs : xs.length = l.length := by simpa using hx
        rw [Spec.quad, Spec.quad, i4 xs hxs, dot_cons]
        change _ * (x + dot _ xs) ^ 2 + _ = _ * (x + dot col xs) ^ 2 + _ + _
        rw [dot_axpy _ _ _ _ (by rw [hl', hs.1]), dot_axpy _ _ _ _ hcz]
        generalize dot col xs = p
        generalize dot z xs = q
        generalize Spec.quad l xs = r
        have h1 : d * t + v * v ≠ 0 := by
          intro h
          apply htpne
          field_simp
          linear_combination h
        have : t + v * v / d = (d * t + v * v) / d := by field_simp
        rw [this]
        have hd' := hd.ne'
        have h2 : t * d + v ^ 2 ≠ 0 := by rwa [show t * d + v ^ 2 = d * t + v * v by ring]
        have h3 : d * t + v ^ 2 ≠ 0 := by rwa [show d * t + v ^ 2 = d * t + v * v by ring]
        field_simp
        ring
termination_by l => l

omit [IsStrictOrderedRing K] in
/-- the inverse of the matrix applied to `z` -/
theorem exists_inverse : ∀ (l : Factors K) (z : List K), Shape l → Pos l → z.length = l.length →
    ∃ x : List K, x.length = l.length ∧ Spec.quad l x = forward l z ∧ dot z x = forward l z
  | [], [], _, _, _ => ⟨[], rfl, by simp [Spec.quad, forward], by simp [dot, forward]⟩
  | (d, col) :: l, v :: z, hs, hp, hz => by
    have hz' : z.length = l.length := by simpa using hz
    have hcz : col.length = z.length := by rw [hs.1, hz']
    have hd : d ≠ 0 := (hp (d, col) (by simp)).ne'
    obtain ⟨xs, h1, h2, h3⟩ := exists_inverse l (axpy (-v) col z) hs.2 (fun c hc => hp c (List.mem_cons_of_mem _ hc))
      (by rw [axpy_length _ _ _ hcz, hz'])
    refine ⟨(v / d - dot col xs) :: xs, by simp [h1], ?_, ?_⟩
    · rw [Spec.quad, forward, h2]
      change d * (v / d - dot col xs + dot col xs) ^ 2 + _ = _
      field_simp
      ring
    · rw [dot_cons, forward, ← h3, dot_axpy _ _ _ _ hcz]
      field_simp
      ring

/-- C131: the diagonal of the factors stays positive in every update. -/
theorem ldl_pos (eps : K) (he : 0 < eps) (l : Factors K) (z : List K) (sigma : K) (hs : Shape l) (hp : Pos l) (hz : z.length = l.length) :
    Shape (ldl eps l z sigma) ∧ Pos (ldl eps l z sigma) ∧ (ldl eps l z sigma).length = l.length := by
  unfold ldl
  split_ifs with h1 h2
  · exact ⟨hs, hp, rfl⟩
  · obtain ⟨a, b, c, _⟩ := update_spec l (1 / sigma) z hs hp hz (Or.inl (by positivity))
    exact ⟨a, b, c⟩
  · have hneg : sigma < 0 := lt_of_le_of_ne (not_lt.1 h2) h1
    dsimp only
    have hT : (if 1 / sigma + forward l z ≥ 0 then eps / sigma else 1 / sigma + forward l z) < 0 := by
      split_ifs with h
      · exact div_neg_of_pos_of_neg he hneg
      · exact not_le.1 h
    generalize (if 1 / sigma + forward l z ≥ 0 then eps / sigma else 1 / sigma + forward l z) = T at hT
    have hb := backward_steps T l z
    have hl := backward_le T l z hp
    rw [hb.1, update_steps]
    obtain ⟨a, b, c, _⟩ := update_spec l (backward T l z).2 z hs hp hz
      (Or.inr ⟨by linarith [hl.1], fun a ha => by rw [← hb.1] at ha; linarith [hl.2 a ha]⟩)
    exact ⟨a, b, c⟩

/-- C131: `ldl` computes the factors of `L D L' + sigma z z'` whenever this matrix is positive definite. -/
theorem rank_one_update (eps : K) (l : Factors K) (z : List K) (sigma : K) (hs : Shape l) (hp : Pos l) (hz : z.length = l.length)
    (hd : ∀ x : List K, x.length = l.length → (∃ i, x.getD i 0 ≠ 0) → 0 < Spec.quad l x + sigma * dot z x ^ 2) (x : List K) (hx : x.length = l.length) :
    Spec.quad (ldl eps l z sigma) x = Spec.quad l x + sigma * dot z x ^ 2 := by
  unfold ldl
  split_ifs with h1 h2
  · rw [h1]; ring
  · obtain ⟨_, _, _, h⟩ := update_spec l (1 / sigma) z hs hp hz (Or.inl (by positivity))
    rw [h x hx, one_div_one_div]
  · have hneg : sigma < 0 := lt_of_le_of_ne (not_lt.1 h2) h1
    have hT : 1 / sigma + forward l z < 0 := by
      obtain ⟨y, y1, y2, y3⟩ := exists_inverse l z hs hp hz
      have hnn : 0 ≤ forward l z := y2 ▸ quad_nonneg l y hp
      have hsi : 1 / sigma < 0 := div_neg_of_pos_of_neg one_pos hneg
      rcases hnn.lt_or_eq with hf | hf
      · have hy : ∃ i, y.getD i 0 ≠ 0 := by
          by_contra hc
          push Not at hc
          have : dot z y = 0 := by
            have : ∀ (z y : List K), (∀ i, y.getD i 0 = 0) → dot z y = 0 := by
              intro z
              induction z with
              | nil => intro y _; simp [dot]
              | cons a z ih =>
                intro y hy
                cases y with
                | nil => simp [dot]
                | cons b y =>
                  have hb : b = 0 := by simpa using hy 0
                  rw [dot_cons, ih y (fun i => by simpa using hy (i + 1)), hb]
                  ring
            exact this z y hc
          linarith
        have := hd y y1 hy
        rw [y2, y3] at this
        have h3 : 0 < 1 + sigma * forward l z := by
          by_contra hc
          push Not at hc
          have : forward l z * (1 + sigma * forward l z) ≤ 0 := mul_nonpos_of_nonneg_of_nonpos hf.le hc
          linarith [this, show forward l z * (1 + sigma * forward l z) = forward l z + sigma * forward l z ^ 2 by ring]
        have h4 : 1 / sigma + forward l z = (1 + sigma * forward l z) / sigma := by field_simp
        rw [h4]
        exact div_neg_of_pos_of_neg h3 hneg
      · rw [← hf]; linarith
    dsimp only
    rw [if_neg (not_le.2 hT)]
    have hb := backward_steps (1 / sigma + forward l z) l z
    have hl := backward_le (1 / sigma + forward l z) l z hp
    rw [hb.1, update_steps]
    obtain ⟨_, _, _, h⟩ := update_spec l (backward (1 / sigma + forward l z) l z).2 z hs hp hz
      (Or.inr ⟨by linarith [hl.1], fun a ha => by rw [← hb.1] at ha; linarith [hl.2 a ha]⟩)
    rw [h x hx, hb.2, add_sub_cancel_right, one_div_one_div]

/-! ### The BFGS update -/

theorem damped_spec (s : State K) (hs : Shape s.l) (hp : Pos s.l) (h1 : s.s.length = s.l.length) (h2 : s.v.length = s.l.length) (h3 : s.g.length = s.l.length) :
    (damped s).v = mulL s.l (mulD s.l (mulLt s.l s.s)) ∧ (damped s).h2 = Spec.quad s.l s.s ∧ dot s.s (damped s).u = (damped s).h1 ∧
      1 / 5 * (damped s).h2 ≤ (damped s).h1 ∧ (damped s).u.length = s.l.length := by
  have hv := product_length s.l s.s hs h1
  have hq : dot s.s (mulL s.l (mulD s.l (mulLt s.l s.s))) = Spec.quad s.l s.s := by rw [dot_product s.l s.s s.s hs h1 h1, bil_self]
  have hu : (axpy (-1) s.v s.g).length = s.l.length := by rw [axpy_length _ _ _ (by rw [h2, h3]), h3]
  have hnn := quad_nonneg s.l s.s hp
  unfold damped
  dsimp only
  rw [hq]
  split_ifs with h
  · refine ⟨rfl, rfl, ?_, ?_, ?_⟩
    · dsimp only
      have hsc : ∀ (c : K) (a b : List K), dot a (scal c b) = c * dot a b := by
        intro c a
        induction a with
        | nil => intro b; simp [dot]
        | cons x a ih =>
          intro b
          cases b with
          | nil => simp [dot, scal]
          | cons y b =>
            change dot (x :: a) ((c * y) :: scal c b) = _
            rw [dot_cons, dot_cons, ih]
            ring
      rw [dot_axpy' _ _ _ _ (by rw [scal_length, hu, hv]), hsc, hq]
      have : Spec.quad s.l s.s - dot s.s (axpy (-1) s.v s.g) ≠ 0 := by
        intro hc
        have : dot s.s (axpy (-1) s.v s.g) = Spec.quad s.l s.s := by linarith
        rw [this] at h
        linarith
      field_simp
      ring
    · dsimp only
      linarith
    · dsimp only
      rw [axpy_length _ _ _ (by rw [scal_length, hu, hv]), scal_length, hu]
  · refine ⟨rfl, rfl, rfl, ?_, hu⟩
    dsimp only
    linarith [not_lt.1 h]

omit [IsStrictOrderedRing K] in
theorem damped_same (s : State K) : (damped s).l = s.l ∧ (damped s).s = s.s ∧ (damped s).x = s.x ∧ (damped s).g = s.g ∧ (damped s).iexact = s.iexact ∧
    (damped s).iter = s.iter ∧ (damped s).itermx = s.itermx ∧ (damped s).ireset = s.ireset ∧ (damped s).v.length = (mulL s.l (mulD s.l (mulLt s.l s.s))).length := by
  unfold damped
  dsimp only
  split_ifs <;> exact ⟨rfl, rfl, rfl, rfl, rfl, rfl, rfl, rfl, rfl⟩

/-- C131: unless it is singular, the update of the matrix of the quadratic model replaces `B` by `B + u u' / (s' u) - B s s' B / (s' B s)`, where `s` is the last step and `u` the (damped)
difference of the gradients. The result is positive definite, and maps the step to `u`. -/
theorem bfgs_update (eps : K) (he : 0 < eps) (s : State K) (hs : Shape s.l) (hp : Pos s.l) (h1 : s.s.length = s.l.length) (h2 : s.v.length = s.l.length)
    (h3 : s.g.length = s.l.length) (hne : ¬ ((damped s).h1 = 0 ∨ (damped s).h2 = 0)) (B' : Factors K)
    (hB : B' = ldl eps (ldl eps s.l (damped s).u (1 / (damped s).h1)) (damped s).v (-1 / (damped s).h2)) :
    Spec.PositiveDefinite s.l.length B' ∧
    (∀ y : List K, y.length = s.l.length → Spec.quad B' y =
      Spec.quad s.l y + dot (damped s).u y ^ 2 / dot (damped s).u s.s - dot y (mulL s.l (mulD s.l (mulLt s.l s.s))) ^ 2 / Spec.quad s.l s.s) ∧
    ∀ y : List K, y.length = s.l.length → dot y (mulL B' (mulD B' (mulLt B' s.s))) = dot y (damped s).u := by
  obtain ⟨d1, d2, d3, d4, d5⟩ := damped_spec s hs hp h1 h2 h3
  push Not at hne
  have hq : 0 < (damped s).h2 := lt_of_le_of_ne (d2 ▸ quad_nonneg s.l s.s hp) (Ne.symm hne.2)
  have hh : 0 < (damped s).h1 := by linarith
  have hv := product_length s.l s.s hs h1
  obtain ⟨a1, a2, a3⟩ := ldl_pos eps he s.l (damped s).u (1 / (damped s).h1) hs hp d5
  have a4 : ∀ x : List K, x.length = s.l.length →
      Spec.quad (ldl eps s.l (damped s).u (1 / (damped s).h1)) x = Spec.quad s.l x + 1 / (damped s).h1 * dot (damped s).u x ^ 2 := by
    refine rank_one_update eps s.l (damped s).u (1 / (damped s).h1) hs hp d5 ?_
    intro x hx hx0
    have := pos_definite s.l hp x hx hx0
    have h : 0 ≤ 1 / (damped s).h1 * dot (damped s).u x ^ 2 := by positivity
    linarith
  have hvl : (damped s).v.length = (ldl eps s.l (damped s).u (1 / (damped s).h1)).length := by rw [a3, d1, hv]
  obtain ⟨b1, b2, b3⟩ := ldl_pos eps he _ (damped s).v (-1 / (damped s).h2) a1 a2 hvl
  -- Cauchy-Schwarz
  have hcs : ∀ x : List K, x.length = s.l.length → (∃ i, x.getD i 0 ≠ 0) →
      0 < Spec.quad s.l x + 1 / (damped s).h1 * dot (damped s).u x ^ 2 + -1 / (damped s).h2 * dot (damped s).v x ^ 2 := by
    intro x hx hx0
    set c := dot (damped s).v x / (damped s).h2 with hc
    have hlen : (axpy (-c) s.s x).length = s.l.length := by rw [axpy_length _ _ _ (by rw [h1, hx]), hx]
    have hbil : bil s.l x s.s = dot (damped s).v x := by rw [← dot_product s.l x s.s hs hx h1, d1, dot_comm]
    have hquad : Spec.quad s.l (axpy (-c) s.s x) = Spec.quad s.l x - dot (damped s).v x ^ 2 / (damped s).h2 := by
      rw [quad_axpy _ _ _ _ h1 hx, hbil, ← d2, hc]
      field_simp
      ring
    have hnn := quad_nonneg s.l (axpy (-c) s.s x) hp
    have hu2 : 0 ≤ 1 / (damped s).h1 * dot (damped s).u x ^ 2 := by positivity
    rcases hnn.lt_or_eq with hpos | hzero
    · rw [hquad] at hpos
      have : -1 / (damped s).h2 * dot (damped s).v x ^ 2 = - (dot (damped s).v x ^ 2 / (damped s).h2) := by ring
      linarith
    · have hz := quad_zero s.l _ hp hlen hzero.symm
      -- `x = c s`
      have hxs : ∀ i, x.getD i 0 = c * s.s.getD i 0 := by
        intro i
        have := hz i
        rw [axpy_getD _ _ _ (by rw [h1, hx])] at this
        linear_combination this
      have hc0 : c ≠ 0 := by
        rintro h0
        obtain ⟨i, hi⟩ := hx0
        apply hi
        rw [hxs i, h0, zero_mul]
      have hdot : dot (damped s).u x = c * (damped s).h1 := by
        have h0 : dot (damped s).u (axpy (-c) s.s x) = 0 := by
          have : ∀ (z y : List K), (∀ i, y.getD i 0 = 0) → dot z y = 0 := by
            intro z
            induction z with
            | nil => intro y _; simp [dot]
            | cons a z ih =>
              intro y hy
              cases y with
              | nil => simp [dot]
              | cons b y =>
                have hb : b = 0 := by simpa using hy 0
                rw [dot_cons, ih y (fun i => by simpa using hy (i + 1)), hb]
                ring
          exact this _ _ hz
        rw [dot_axpy' _ _ _ _ (by rw [h1, hx]), dot_comm _ s.s, d3] at h0
        linear_combination h0
      have : 0 < 1 / (damped s).h1 * dot (damped s).u x ^ 2 := by
        rw [hdot]
        positivity
      rw [hquad] at hzero
      have h' : -1 / (damped s).h2 * dot (damped s).v x ^ 2 = - (dot (damped s).v x ^ 2 / (damped s).h2) := by ring
      linarith
  have b4 : ∀ x : List K, x.length = s.l.length → Spec.quad B' x =
      Spec.quad s.l x + 1 / (damped s).h1 * dot (damped s).u x ^ 2 + -1 / (damped s).h2 * dot (damped s).v x ^ 2 := by
    intro x hx
    rw [hB, rank_one_update eps _ (damped s).v (-1 / (damped s).h2) a1 a2 hvl (fun y hy hy0 => by
      rw [a3] at hy
      rw [a4 y hy]
      exact hcs y hy hy0) x (by rw [a3, hx]), a4 x hx]
  have hBl : B'.length = s.l.length := by rw [hB, b3, a3]
  have hBs : Shape B' := hB ▸ b1
  refine ⟨?_, ?_, ?_⟩
  · intro x hx hx0
    rw [b4 x hx]
    exact hcs x hx hx0
  · intro y hy
    rw [b4 y hy, d1, dot_comm _ s.s, d3, ← d2, dot_comm y]
    ring
  · intro y hy
    rw [dot_product B' y s.s hBs (by rw [hBl, hy]) (by rw [hBl, h1])]
    have e1 := quad_axpy 1 B' s.s y (by rw [hBl, h1]) (by rw [hBl, hy])
    have hlen : (axpy 1 s.s y).length = s.l.length := by rw [axpy_length _ _ _ (by rw [h1, hy]), hy]
    rw [b4 _ hlen, b4 _ hy, b4 _ h1, quad_axpy 1 s.l s.s y h1 hy, dot_axpy' _ _ _ _ (by rw [h1, hy]), dot_axpy' _ _ _ _ (by rw [h1, hy]),
      dot_comm _ s.s, d3] at e1
    have e2 : bil s.l y s.s = dot (damped s).v y := by rw [← dot_product s.l y s.s hs hy h1, d1, dot_comm]
    have e3 : dot (damped s).v s.s = (damped s).h2 := by rw [d2, dot_comm, d1, dot_product s.l s.s s.s hs h1 h1, bil_self]
    rw [e2, e3, ← d2] at e1
    rw [dot_comm y]
    have hq' := hq.ne'
    have hh' := hh.ne'
    field_simp at e1
    have : 2 * ((damped s).h1 * (damped s).h2) * (bil B' y s.s - dot (damped s).u y) = 0 := by linear_combination -e1
    have h0 : bil B' y s.s - dot (damped s).u y = 0 := by
      rcases mul_eq_zero.1 this with h | h
      · exact absurd h (by positivity)
      · exact h
    linarith

/-! ### One call -/

theorem bound1_mem (lo hi x : K) (h : lo ≤ hi) : lo ≤ bound1 lo hi x ∧ bound1 lo hi x ≤ hi := by
  unfold bound1
  split_ifs with h1 h2
  · exact ⟨le_refl _, h⟩
  · exact ⟨h, le_refl _⟩
  · exact ⟨not_lt.1 h1, not_lt.1 h2⟩

omit [IsStrictOrderedRing K] in
theorem bound_length (lo hi : List K) (x : ℕ → K) (h : hi.length = lo.length) : (bound lo hi x).length = lo.length := by simp [bound, h]

omit [IsStrictOrderedRing K] in
theorem bound_getD (lo hi : List K) (x : ℕ → K) (h : hi.length = lo.length) (i : ℕ) (hi' : i < lo.length) :
    (bound lo hi x).getD i 0 = bound1 (lo.getD i 0) (hi.getD i 0) (x i) := by
  rw [List.getD_eq_getElem _ _ (by rw [bound_length _ _ _ h]; exact hi'), List.getD_eq_getElem _ _ hi', List.getD_eq_getElem _ _ (by omega)]
  simp [bound]

/-- the bounds describe a box -/
structure Box (e : Env K) : Prop where
  len : e.xu.length = e.xl.length
  le : ∀ i < e.xl.length, e.xl.getD i 0 ≤ e.xu.getD i 0
  eps : 0 < e.eps

/-- what holds whenever an iteration begins -/
structure Ready (e : Env K) (s : State K) : Prop where
  inside : Spec.Inside e.xl e.xu s.x
  glen : s.g.length = e.xl.length
  inexact : s.iexact = false
  shape : Shape s.l
  pos : Pos s.l
  llen : s.l.length = e.xl.length

/-- what holds during a line search -/
structure Searching (e : Env K) (s : State K) : Prop where
  descent : s.h3 < 0
  start : Spec.Inside e.xl e.xu s.x0
  step : s.s.length = e.xl.length
  stop : Spec.Inside e.xl e.xu (axpy 1 s.s s.x0)
  value : s.t0 = s.f0

/-- what holds when `slsqp` returns -/
structure Inv (e : Env K) (M : ℕ) (s : State K) : Prop where
  ready : Ready e s
  itermx : s.itermx = M
  iter : Spec.Asks s → s.iter ≤ M
  slen : Spec.Asks s → s.s.length = e.xl.length
  vlen : Spec.Asks s → s.v.length = e.xl.length
  searching : s.mode = 1 → Searching e s ∧ s.line ≤ 11

theorem inside_convex (e : Env K) (x0 s : List K) (a : K) (h0 : 0 ≤ a) (h1 : a ≤ 1) (hl : s.length = e.xl.length) (hx : Spec.Inside e.xl e.xu x0)
    (hs : Spec.Inside e.xl e.xu (axpy 1 s x0)) : Spec.Inside e.xl e.xu (axpy 1 (scal a s) x0) := by
  refine ⟨by rw [axpy_length _ _ _ (by rw [scal_length, hl, hx.1]), hx.1], fun i hi => ?_⟩
  have a1 := hx.2 i hi
  have a2 := hs.2 i hi
  rw [axpy_getD _ _ _ (by rw [hl, hx.1])] at a2
  rw [axpy_getD _ _ _ (by rw [scal_length, hl, hx.1]), scal_getD]
  constructor
  · nlinarith [mul_nonneg h0 (sub_nonneg.2 a2.1), mul_nonneg (sub_nonneg.2 h1) (sub_nonneg.2 a1.1)]
  · nlinarith [mul_nonneg h0 (sub_nonneg.2 a2.2), mul_nonneg (sub_nonneg.2 h1) (sub_nonneg.2 a1.2)]

omit [IsStrictOrderedRing K] in
theorem augmented_spec (e : Env K) : ∀ (k : ℕ) (p : K) (s : State K),
    (augmented e k p s).x = s.x ∧ (augmented e k p s).g = s.g ∧ (augmented e k p s).iexact = s.iexact ∧ (augmented e k p s).l = s.l ∧
      (augmented e k p s).iter = s.iter ∧ (augmented e k p s).itermx = s.itermx ∧ (augmented e k p s).v = s.v ∧
      ∃ y, (augmented e k p s).s = bound s.u s.v y
  | 0, p, s => by
    rw [augmented]
    split_ifs <;> exact ⟨rfl, rfl, rfl, rfl, rfl, rfl, rfl, _, rfl⟩
  | k + 1, p, s => by
    rw [augmented]
    split_ifs
    · exact augmented_spec e k _ _
    · exact ⟨rfl, rfl, rfl, rfl, rfl, rfl, rfl, _, rfl⟩

theorem direction_spec (e : Env K) (he : Box e) (s : State K) (hx : Spec.Inside e.xl e.xu s.x) :
    (direction e s).1.x = s.x ∧ (direction e s).1.g = s.g ∧ (direction e s).1.iexact = s.iexact ∧ (direction e s).1.l = s.l ∧
      (direction e s).1.iter = s.iter ∧ (direction e s).1.itermx = s.itermx ∧ (direction e s).1.v.length = e.xl.length ∧
      (direction e s).1.s.length = e.xl.length ∧ Spec.Inside e.xl e.xu (axpy 1 (direction e s).1.s s.x) := by
  have hlx : s.x.length = e.xu.length := by rw [hx.1, he.len]
  have hu : (axpy (-1) s.x e.xl).length = e.xl.length := axpy_length _ _ _ hx.1
  have hv : (axpy (-1) s.x e.xu).length = e.xl.length := by rw [axpy_length _ _ _ hlx, he.len]
  have key : ∀ y : ℕ → K, (bound (axpy (-1) s.x e.xl) (axpy (-1) s.x e.xu) y).length = e.xl.length ∧
      Spec.Inside e.xl e.xu (axpy 1 (bound (axpy (-1) s.x e.xl) (axpy (-1) s.x e.xu) y) s.x) := by
    intro y
    have hl : (bound (axpy (-1) s.x e.xl) (axpy (-1) s.x e.xu) y).length = e.xl.length := by rw [bound_length _ _ _ (by rw [hv, hu]), hu]
    refine ⟨hl, by rw [axpy_length _ _ _ (by rw [hl, hx.1]), hx.1], fun i hi => ?_⟩
    rw [axpy_getD _ _ _ (by rw [hl, hx.1]), bound_getD _ _ _ (by rw [hv, hu]) i (by rw [hu]; exact hi), axpy_getD _ _ _ hx.1, axpy_getD _ _ _ hlx]
    have := bound1_mem (e.xl.getD i 0 + -1 * s.x.getD i 0) (e.xu.getD i 0 + -1 * s.x.getD i 0) (y i) (by linarith [he.le i hi])
    constructor
    · linarith [this.1]
    · linarith [this.2]
  unfold direction
  dsimp only
  split_ifs
  · obtain ⟨a1, a2, a3, a4, a5, a6, a7, y, a8⟩ := augmented_spec e 5 100
      { s with u := axpy (-1) s.x e.xl, v := axpy (-1) s.x e.xu, h4 := 1, s := bound (axpy (-1) s.x e.xl) (axpy (-1) s.x e.xu) (e.lsq s.l s.g (axpy (-1) s.x e.xl) (axpy (-1) s.x e.xu)).1,
               mode := (e.lsq s.l s.g (axpy (-1) s.x e.xl) (axpy (-1) s.x e.xu)).2, h3 := 0, incons := 0 }
    refine ⟨a1, a2, a3, a4, a5, a6, ?_, ?_, ?_⟩
    · rw [a7]; exact hv
    · rw [a8]; exact (key y).1
    · rw [a8]; exact (key y).2
  · exact ⟨rfl, rfl, rfl, rfl, rfl, rfl, hv, (key _).1, (key _).2⟩

/-- what the part of an iteration before the line search guarantees -/
def AttemptOk (e : Env K) (M i : ℕ) : Outcome K → Prop
  | .exit r => Inv e M r ∧ r.mode ≠ 1 ∧ (Spec.Asks r → i < r.iter)
  | .noDescent _ r => Ready e r ∧ r.itermx = M ∧ i < r.iter
  | .search r => Ready e r ∧ r.itermx = M ∧ i < r.iter ∧ r.iter ≤ M ∧ Searching e r ∧ r.v.length = e.xl.length

theorem attempt_ok (e : Env K) (he : Box e) (M : ℕ) (s : State K) (hr : Ready e s) (hM : s.itermx = M) : AttemptOk e M s.iter (attempt e s) := by
  unfold attempt
  dsimp only
  split_ifs with h1 h2 h3 h4
  · refine ⟨⟨⟨hr.inside, hr.glen, hr.inexact, hr.shape, hr.pos, hr.llen⟩, hM, ?_, ?_, ?_, ?_⟩, by simp, ?_⟩ <;> simp [Spec.Asks]
  all_goals
    obtain ⟨a1, a2, a3, a4, a5, a6, a7, a8, a9⟩ := direction_spec e he { s with iter := s.iter + 1, mode := 9 } hr.inside
    generalize direction e { s with iter := s.iter + 1, mode := 9 } = r at *
    obtain ⟨r, badlin⟩ := r
    dsimp only at *
    have hr' : Ready e r := ⟨a1 ▸ hr.inside, a2 ▸ hr.glen, a3 ▸ hr.inexact, a4 ▸ hr.shape, a4 ▸ hr.pos, a4 ▸ hr.llen⟩
  · exact ⟨⟨hr', by omega, fun _ => by omega, fun _ => a8, fun _ => a7, fun h => absurd h h2⟩, h2, fun _ => by omega⟩
  all_goals
    have hd : Ready e (derivative badlin r) ∧ (derivative badlin r).itermx = r.itermx ∧ (derivative badlin r).iter = r.iter ∧
        (derivative badlin r).x0 = r.x ∧ (derivative badlin r).s = r.s ∧ (derivative badlin r).v = r.g ∧
          ((derivative badlin r).mode ≠ 0 → (derivative badlin r).t0 = (derivative badlin r).f0) := by
      unfold derivative
      dsimp only
      split_ifs
      · exact ⟨⟨hr'.inside, hr'.glen, hr'.inexact, hr'.shape, hr'.pos, hr'.llen⟩, rfl, rfl, rfl, rfl, rfl, fun h => absurd rfl h⟩
      · exact ⟨⟨hr'.inside, hr'.glen, hr'.inexact, hr'.shape, hr'.pos, hr'.llen⟩, rfl, rfl, rfl, rfl, rfl, fun _ => add_zero _⟩
    obtain ⟨b1, b2, b3, b4, b5, b6, b7⟩ := hd
  · exact ⟨⟨b1, by omega, fun _ => by omega, fun _ => by rw [b5]; exact a8, fun _ => by rw [b6]; exact hr'.glen, fun h => by omega⟩, by omega, fun _ => by omega⟩
  · exact ⟨b1, by omega, by omega⟩
  · refine ⟨b1, by omega, by omega, by omega, ⟨not_le.1 h4, ?_, ?_, ?_, b7 h3⟩, by rw [b6]; exact hr'.glen⟩
    · rw [b4]; exact hr'.inside
    · rw [b5]; exact a8
    · rw [b4, b5, a1]; exact a9

omit [IsStrictOrderedRing K] in
theorem identity_spec [IsStrictOrderedRing K] : ∀ n : ℕ, Shape (identity (K := K) n) ∧ Pos (identity (K := K) n) ∧ (identity (K := K) n).length = n
  | 0 => ⟨trivial, by simp [Pos, identity], rfl⟩
  | n + 1 => by
    obtain ⟨a, b, c⟩ := identity_spec n
    refine ⟨⟨by simp [c], a⟩, ?_, by simp [identity, c]⟩
    intro x hx
    rcases List.mem_cons.1 hx with rfl | hx
    · exact one_pos
    · exact b x hx

/-- one trial of the line search -/
theorem trial_ok (e : Env K) (M : ℕ) (s : State K) (hr : Ready e s) (hM : s.itermx = M) (hi : s.iter ≤ M) (hv : s.v.length = e.xl.length) (hs : Searching e s)
    (h0 : 0 < s.alpha) (h1 : s.alpha ≤ 1) (hl : s.line ≤ 10) : Inv e M (trial s) := by
  have hx := inside_convex e s.x0 s.s s.alpha h0.le h1 hs.step hs.start hs.stop
  unfold trial
  refine ⟨⟨hx, hr.glen, hr.inexact, hr.shape, hr.pos, hr.llen⟩, hM, fun _ => hi, fun _ => ?_, fun _ => hv, fun _ => ⟨⟨?_, hs.start, ?_, hx, hs.value⟩, ?_⟩⟩
  · dsimp only; rw [scal_length]; exact hs.step
  · dsimp only; exact mul_neg_of_pos_of_neg h0 hs.descent
  · dsimp only; rw [scal_length]; exact hs.step
  · dsimp only; omega

/-- what an iteration guarantees -/
def IterationOk (e : Env K) (M i : ℕ) (r : State K) : Prop :=
  Inv e M r ∧ (Spec.Asks r → i < r.iter) ∧ (r.mode = 1 → r.line = 1)

theorem beginSearch_ok (e : Env K) (M i : ℕ) (r : State K) (h : AttemptOk e M i (.search r)) : IterationOk e M i (beginSearch e r) := by
  obtain ⟨a1, a2, a3, a4, a5, a6⟩ := h
  unfold beginSearch
  rw [if_neg (by rw [a1.inexact]; simp)]
  refine ⟨trial_ok e M _ ⟨a1.inside, a1.glen, a1.inexact, a1.shape, a1.pos, a1.llen⟩ a2 a4 a6 ⟨a5.descent, a5.start, a5.step, a5.stop, a5.value⟩ one_pos le_rfl (Nat.zero_le _),
    fun _ => a3, fun _ => rfl⟩

omit [IsStrictOrderedRing K] in
theorem relaxed_mode (e : Env K) (b : Bool) (s : State K) : (relaxed e b s).mode = 0 ∨ (relaxed e b s).mode = 8 := by
  unfold relaxed
  dsimp only
  split_ifs <;> simp

theorem relaxed_ok (e : Env K) (M i : ℕ) (b : Bool) (s : State K) (hr : Ready e s) (hM : s.itermx = M) : IterationOk e M i (relaxed e b s) := by
  have h := relaxed_mode e b s
  have hna : ¬ Spec.Asks (relaxed e b s) := by unfold Spec.Asks; omega
  exact ⟨⟨⟨hr.inside, hr.glen, hr.inexact, hr.shape, hr.pos, hr.llen⟩, hM, fun h => absurd h hna, fun h => absurd h hna, fun h => absurd h hna, fun h => by omega⟩,
    fun h => absurd h hna, fun h => by omega⟩

theorem iteration_ok (e : Env K) (he : Box e) (M : ℕ) : ∀ (k i : ℕ) (s : State K), Ready e s → s.itermx = M → i ≤ s.iter → IterationOk e M i (iteration e k s)
  | 0, i, s, hr, hM, hi => by
    have h := attempt_ok e he M s hr hM
    rw [iteration]
    generalize attempt e s = o at h
    cases o with
    | exit r => exact ⟨h.1, fun ha => lt_of_le_of_lt hi (h.2.2 ha), fun h1 => absurd h1 h.2.1⟩
    | noDescent b r =>
      exact relaxed_ok e M i b _ ⟨h.1.inside, h.1.glen, h.1.inexact, h.1.shape, h.1.pos, h.1.llen⟩ h.2.1
    | search r =>
      obtain ⟨a, b, c⟩ := beginSearch_ok e M s.iter r h
      exact ⟨a, fun h => lt_of_le_of_lt hi (b h), c⟩
  | k + 1, i, s, hr, hM, hi => by
    have h := attempt_ok e he M s hr hM
    rw [iteration]
    generalize attempt e s = o at h
    cases o with
    | exit r => exact ⟨h.1, fun ha => lt_of_le_of_lt hi (h.2.2 ha), fun h1 => absurd h1 h.2.1⟩
    | noDescent b r =>
      obtain ⟨i1, i2, i3⟩ := identity_spec (K := K) r.x.length
      exact iteration_ok e he M k i _ ⟨h.1.inside, h.1.glen, h.1.inexact, i1, i2, i3.trans h.1.inside.1⟩ h.2.1 (by have := h.2.2; dsimp only; omega)
    | search r =>
      obtain ⟨a, b, c⟩ := beginSearch_ok e M s.iter r h
      exact ⟨a, fun h => lt_of_le_of_lt hi (b h), c⟩

theorem reset_ok (e : Env K) (he : Box e) (M : ℕ) (s : State K) (hx : Spec.Inside e.xl e.xu s.x) (hg : s.g.length = e.xl.length) (hi : s.iexact = false)
    (hl : Shape s.l ∧ Pos s.l ∧ s.l.length = e.xl.length ∨ s.ireset = 0) (hM : s.itermx = M) : IterationOk e M s.iter (reset e s) := by
  unfold reset
  dsimp only
  obtain ⟨i1, i2, i3⟩ := identity_spec (K := K) s.x.length
  split_ifs with h
  · rcases hl with hl | hl
    · exact relaxed_ok e M _ _ _ ⟨hx, hg, hi, hl.1, hl.2.1, hl.2.2⟩ hM
    · rw [hl] at h; omega
  · exact iteration_ok e he M _ _ _ ⟨hx, hg, hi, i1, i2, i3.trans hx.1⟩ hM le_rfl

theorem gradient_ok (e : Env K) (he : Box e) (M : ℕ) (s : State K) (hr : Ready e s) (hM : s.itermx = M) (hs : s.s.length = e.xl.length)
    (hv : s.v.length = e.xl.length) : IterationOk e M s.iter (gradient e s) := by
  have d := damped_spec s hr.shape hr.pos (by rw [hs, hr.llen]) (by rw [hv, hr.llen]) (by rw [hr.glen, hr.llen])
  obtain ⟨s1, s2, s3, s4, s5, s6, s7, s8, s9⟩ := damped_same s
  have hvl : (damped s).v.length = s.l.length := by rw [s9]; exact product_length _ _ hr.shape (by rw [hs, hr.llen])
  unfold gradient
  dsimp only
  split_ifs with h
  · have := reset_ok e he M (damped s) (s3 ▸ hr.inside) (s4 ▸ hr.glen) (s5 ▸ hr.inexact) (Or.inl (by rw [s1]; exact ⟨hr.shape, hr.pos, hr.llen⟩)) (s7 ▸ hM)
    rwa [s6] at this
  · rw [s1]
    obtain ⟨a1, a2, a3⟩ := ldl_pos e.eps he.eps s.l (damped s).u (1 / (damped s).h1) hr.shape hr.pos d.2.2.2.2
    obtain ⟨b1, b2, b3⟩ := ldl_pos e.eps he.eps _ (damped s).v (-1 / (damped s).h2) a1 a2 (by rw [a3, hvl])
    refine iteration_ok e he M _ _ _ ⟨?_, ?_, ?_, b1, b2, ?_⟩ ?_ ?_
    · dsimp only; rw [s3]; exact hr.inside
    · dsimp only; rw [s4]; exact hr.glen
    · dsimp only; rw [s5]; exact hr.inexact
    · dsimp only; rw [b3, a3]; exact hr.llen
    · dsimp only; rw [s7]; exact hM
    · dsimp only; rw [s6]

/-- how many more calls a state can lead to -/
def cost (M : ℕ) (s : State K) : ℕ := 12 * (M - s.iter) + if s.mode = 1 then 13 - s.line else 1

theorem iteration_cost (e : Env K) (M i : ℕ) (r : State K) (h : IterationOk e M i r) (ha : Spec.Asks r) (hi : i ≤ M) : cost M r < 12 * (M - i) + 1 := by
  obtain ⟨a, b, c⟩ := h
  have h1 := b ha
  have h2 := a.iter ha
  unfold cost
  split_ifs with hm
  · have := c hm
    omega
  · omega

theorem lineTest_ok (e : Env K) (M : ℕ) (s : State K) (hr : Ready e s) (hM : s.itermx = M) (hi : s.iter ≤ M) (hv : s.v.length = e.xl.length) (hs : Searching e s)
    (hl : s.line ≤ 11) (hm : s.mode = 1) : Inv e M (lineTest e s) ∧ (Spec.Asks (lineTest e s) → cost M (lineTest e s) < cost M s) := by
  unfold lineTest
  split_ifs with h
  · have hna : (accept e s).mode = 0 ∨ (accept e s).mode = -1 := by
      unfold accept
      dsimp only
      split_ifs <;> simp
    refine ⟨⟨⟨hr.inside, hr.glen, hr.inexact, hr.shape, hr.pos, hr.llen⟩, hM, fun _ => hi, fun _ => hs.step, fun _ => hv, fun h => by omega⟩, fun ha => ?_⟩
    have : (accept e s).iter = s.iter := rfl
    unfold cost
    rw [if_neg (by omega), if_pos hm, this]
    omega
  · push Not at h
    have h3 := hs.descent
    have hden : 2 * (s.h3 - s.h1) < 0 := by linarith [h.1]
    refine ⟨trial_ok e M _ ⟨hr.inside, hr.glen, hr.inexact, hr.shape, hr.pos, hr.llen⟩ hM hi hv ⟨hs.descent, hs.start, hs.step, hs.stop, hs.value⟩ ?_ ?_ h.2, fun _ => ?_⟩
    · dsimp only
      exact lt_of_lt_of_le (by norm_num) (le_max_right _ _)
    · dsimp only
      refine max_le ?_ (by norm_num)
      rw [div_le_one_of_neg hden]
      linarith [h.1]
    · unfold cost trial
      dsimp only
      rw [if_pos rfl, if_pos hm]
      have := h.2
      omega

theorem prepare_ok (e : Env K) (he : Box e) (M : ℕ) (value : K) (grad : List K) (hg : grad.length = e.xl.length) (s : State K) (h : Inv e M s) :
    Inv e M (prepare e value grad s) ∧ (prepare e value grad s).mode = s.mode ∧ (prepare e value grad s).iter = s.iter ∧ (prepare e value grad s).line = s.line := by
  have hx : Spec.Inside e.xl e.xu (bound e.xl e.xu fun i => s.x.getD i 0) :=
    ⟨bound_length _ _ _ he.len, fun i hi => by rw [bound_getD _ _ _ he.len i hi]; exact bound1_mem _ _ _ (he.le i hi)⟩
  have hr := h.ready
  unfold prepare
  dsimp only
  split_ifs <;>
    exact ⟨⟨⟨hx, by first | exact hg | exact hr.glen, hr.inexact, hr.shape, hr.pos, hr.llen⟩, h.itermx, h.iter, h.slen, h.vlen,
      fun hm => ⟨⟨(h.searching hm).1.descent, (h.searching hm).1.start, (h.searching hm).1.step, (h.searching hm).1.stop, (h.searching hm).1.value⟩, (h.searching hm).2⟩⟩, rfl, rfl, rfl⟩

theorem call_ok (e : Env K) (he : Box e) (M : ℕ) (s : State K) (h : Inv e M s) (ha : Spec.Asks s) :
    Inv e M (call e s) ∧ (Spec.Asks (call e s) → cost M (call e s) < cost M s) := by
  unfold call
  rcases ha with hm | hm
  · rw [if_neg (by omega), if_neg (by omega)]
    dsimp only
    rw [if_neg (by rw [h.ready.inexact]; simp)]
    obtain ⟨h1, h2⟩ := h.searching hm
    have hr := h.ready
    exact lineTest_ok e M { s with t := s.f, h1 := s.f - s.t0 } ⟨hr.inside, hr.glen, hr.inexact, hr.shape, hr.pos, hr.llen⟩ h.itermx (h.iter (Or.inl hm)) (h.vlen (Or.inl hm))
      ⟨h1.descent, h1.start, h1.step, h1.stop, h1.value⟩ h2 hm
  · rw [if_pos (by omega)]
    have hg := gradient_ok e he M s h.ready h.itermx (h.slen (Or.inr hm)) (h.vlen (Or.inr hm))
    refine ⟨hg.1, fun ha => ?_⟩
    have := iteration_cost e M s.iter _ hg ha (h.iter (Or.inr hm))
    unfold cost at this ⊢
    rw [if_neg (c := s.mode = 1) (by omega)]
    exact this

theorem begin_ok (e : Env K) (he : Box e) (s : State K) (hm : s.mode = 0) (ha : 0 ≤ s.acc) (hx : Spec.Inside e.xl e.xu s.x) (hg : s.g.length = e.xl.length) :
    Inv e s.iter (call e s) ∧ (Spec.Asks (call e s) → cost s.iter (call e s) ≤ 12 * s.iter) := by
  have hc : call e s = reset e (start s) := by
    unfold call
    rw [if_neg (by omega), if_pos hm]
  rw [hc]
  have h := reset_ok e he s.iter (start s) hx hg (by simp [start, ha]) (Or.inr rfl) rfl
  refine ⟨h.1, fun h1 => ?_⟩
  have h2 := iteration_cost e s.iter _ _ h h1 (Nat.zero_le _)
  change _ < 12 * (s.iter - 0) + 1 at h2
  omega

theorem first_ok (e : Env K) (he : Box e) (M : ℕ) (x : List K) (tolerance : K) (mem : State K) (value : K) (grad : List K) (hg : grad.length = e.xl.length) :
    Inv e M (call e (prepare e value grad (setup x tolerance M mem))) ∧
      (Spec.Asks (call e (prepare e value grad (setup x tolerance M mem))) → cost M (call e (prepare e value grad (setup x tolerance M mem))) ≤ 12 * M) := by
  have hx : Spec.Inside e.xl e.xu (bound e.xl e.xu fun i => x.getD i 0) :=
    ⟨bound_length _ _ _ he.len, fun i hi => by rw [bound_getD _ _ _ he.len i hi]; exact bound1_mem _ _ _ (he.le i hi)⟩
  have hp : ∃ s, prepare e value grad (setup x tolerance M mem) = s ∧ s.mode = 0 ∧ s.acc = tolerance * tolerance * (1 / 2) ∧ s.x = (bound e.xl e.xu fun i => x.getD i 0) ∧
      s.g = grad ∧ s.iter = M := ⟨_, rfl, rfl, rfl, rfl, rfl, rfl⟩
  obtain ⟨s, h0, h1, h2, h3, h4, h5⟩ := hp
  rw [h0, ← h5]
  exact begin_ok e he s h1 (by rw [h2]; exact mul_nonneg (mul_self_nonneg _) (by norm_num)) (h3 ▸ hx) (h4 ▸ hg)

/-! ### The property -/

theorem run_ok (e : Env K) (he : Box e) (M : ℕ) (x : List K) (tolerance : K) (mem : State K) (objective : ℕ → K × List K)
    (hg : ∀ k, (objective k).2.length = e.xl.length) : ∀ k, (∀ j < k, Spec.Asks (run e objective (setup x tolerance M mem) j)) →
      Inv e M (run e objective (setup x tolerance M mem) k) ∧
        (Spec.Asks (run e objective (setup x tolerance M mem) k) → cost M (run e objective (setup x tolerance M mem) k) + k ≤ 12 * M) := by
  intro k
  induction k with
  | zero =>
    intro _
    rw [run]
    obtain ⟨a, b⟩ := first_ok e he M x tolerance mem (objective 0).1 (objective 0).2 (hg 0)
    exact ⟨a, fun h => by have := b h; omega⟩
  | succ k ih =>
    intro ha
    obtain ⟨h1, h2⟩ := ih fun j hj => ha j (by omega)
    have hk := ha k (by omega)
    rw [run]
    generalize run e objective (setup x tolerance M mem) k = s at *
    obtain ⟨p1, p2, p3, p4⟩ := prepare_ok e he M (objective (k + 1)).1 (objective (k + 1)).2 (hg (k + 1)) s h1
    obtain ⟨c1, c2⟩ := call_ok e he M _ p1 (by unfold Spec.Asks; rw [p2]; exact hk)
    refine ⟨c1, fun h => ?_⟩
    have h3 := c2 h
    have h4 := h2 hk
    have h5 : cost M (prepare e (objective (k + 1)).1 (objective (k + 1)).2 s) = cost M s := by
      unfold cost
      rw [p2, p3, p4]
    omega

/-- C131: with `M` allowed iterations the search makes at most `12 M + 1` calls of `slsqp`, for all values of the objective and of its gradient and all solutions of the subproblems. -/
theorem slsqp_stops (e : Env K) (he : Box e) (M : ℕ) (x : List K) (tolerance : K) (mem : State K) (objective : ℕ → K × List K)
    (hg : ∀ k, (objective k).2.length = e.xl.length) : ∃ k ≤ 12 * M, ¬ Spec.Asks (run e objective (setup x tolerance M mem) k) := by
  by_contra hc
  push Not at hc
  have h1 := run_ok e he M x tolerance mem objective hg (12 * M) (fun j hj => hc j hj.le)
  have h2 := h1.2 (hc _ le_rfl)
  have h3 : 0 < cost M (run e objective (setup x tolerance M mem) (12 * M)) := by
    unfold cost
    split_ifs with h
    · have := (h1.1.searching h).2
      omega
    · omega
  omega

/-- C131: each point that `slsqp` returns lies inside of the bounds, and the matrix of its quadratic model is positive definite, after every call, for all values of the objective and of
its gradient and all solutions of the subproblems. -/
theorem slsqp_inside (e : Env K) (he : Box e) (M : ℕ) (x : List K) (tolerance : K) (mem : State K) (objective : ℕ → K × List K)
    (hg : ∀ k, (objective k).2.length = e.xl.length) (k : ℕ) (hk : ∀ j < k, Spec.Asks (run e objective (setup x tolerance M mem) j)) :
    Spec.Inside e.xl e.xu (run e objective (setup x tolerance M mem) k).x ∧
      Spec.PositiveDefinite e.xl.length (run e objective (setup x tolerance M mem) k).l := by
  obtain ⟨h, _⟩ := run_ok e he M x tolerance mem objective hg k hk
  refine ⟨h.ready.inside, ?_⟩
  have := pos_definite _ h.ready.pos
  rwa [h.ready.llen] at this

/-- C131: a trial point ends the line search only if the objective there is smaller than at the start of the line search, or after ten shorter trials. -/
theorem slsqp_descends (e : Env K) (he : Box e) (M : ℕ) (x : List K) (tolerance : K) (mem : State K) (objective : ℕ → K × List K)
    (hg : ∀ k, (objective k).2.length = e.xl.length) (k : ℕ) (hk : ∀ j < k, Spec.Asks (run e objective (setup x tolerance M mem) j))
    (h1 : (run e objective (setup x tolerance M mem) k).mode = 1) (h2 : (run e objective (setup x tolerance M mem) (k + 1)).mode ≠ 1) :
    (objective (k + 1)).1 < (run e objective (setup x tolerance M mem) k).f0 ∨ (run e objective (setup x tolerance M mem) k).line = 11 := by
  obtain ⟨h, _⟩ := run_ok e he M x tolerance mem objective hg k hk
  rw [run] at h2
  generalize run e objective (setup x tolerance M mem) k = s at *
  obtain ⟨⟨hd, _, _, _, hv⟩, hl⟩ := h.searching h1
  by_contra hc
  push Not at hc
  obtain ⟨c1, c2⟩ := hc
  refine h2 ?_
  have hp : ∃ r, prepare e (objective (k + 1)).1 (objective (k + 1)).2 s = r ∧ r.mode = 1 ∧ r.f = (objective (k + 1)).1 ∧ r.t0 = s.t0 ∧ r.h3 = s.h3 ∧ r.line = s.line ∧
      r.iexact = s.iexact := by
    refine ⟨_, rfl, ?_⟩
    unfold prepare
    dsimp only
    rw [if_neg (by omega), if_pos h1]
    exact ⟨h1, rfl, rfl, rfl, rfl, rfl⟩
  obtain ⟨r, hr, r1, r2, r3, r4, r5, r6⟩ := hp
  rw [hr]
  unfold call
  rw [if_neg (by omega), if_neg (by omega)]
  dsimp only
  rw [if_neg (by rw [r6, h.ready.inexact]; simp)]
  unfold lineTest
  dsimp only
  rw [if_neg]
  · rfl
  · rw [r2, r3, r4, r5, hv]
    intro hc
    rcases hc with hc | hc
    · linarith
    · omega

/-- C131: no search is rejected for the size of its work arrays, for every number of parametric dimensions (and none is larger than necessary). -/
theorem workspace_accepted (n : ℕ) : rejected n 0 0 (allocated n 0 0).1 (allocated n 0 0).2 = none ∧ ∀ lw ljw : ℤ,
    lw < (allocated n 0 0).1 ∨ ljw < (allocated n 0 0).2 → rejected n 0 0 lw ljw ≠ none := by
  have h1 : (allocated (n : ℤ) 0 0).1 = (required n 0 0).1 := by
    unfold allocated required
    dsimp only
    ring
  have h2 : (allocated (n : ℤ) 0 0).2 = (required n 0 0).2 := by
    unfold allocated required
    dsimp only
    rw [max_eq_left (by omega)]
  constructor
  · unfold rejected
    rw [h1, h2, if_neg (by simp)]
  · intro lw ljw h
    unfold rejected
    rw [h1, h2] at h
    rw [if_pos h]
    simp

/-! ### A case that meets the hypotheses -/

/-- one variable in `[0, 1]`; the subproblem is solved by a Newton step -/
def line1 : Env ℚ where
  xl := [0]
  xu := [1]
  lsq := fun l g _ _ => (fun i => -(g.getD i 0) / ((l.map Prod.fst).getD i 1), 1)
  lsqAug := fun _ _ _ _ _ => (fun _ => 0, 0, 1)
  norm := fun v => (v.map abs).sum
  exactSearch := id
  eps := 1 / 2 ^ 52

/-- work arrays with arbitrary content -/
def mem1 : State ℚ :=
  ⟨[], 5, [], 7, 3, 9, [], [], [], [], [], 1, 1, 1, 1, 1, 1, 1, 1, 1, 1, true, 3, 4, 5, 6⟩

/-- values of `2 (x - 1/4)²` and of its derivative at the points the routine asks for -/
def parabola : ℕ → ℚ × List ℚ
  | 0 => (9 / 8, [3])
  | 1 => (1 / 8, [-1])
  | 2 => (1 / 8, [-1])
  | 3 => (0, [0])
  | _ => (0, [0])

example : Box line1 ∧ (∀ k, (parabola k).2.length = line1.xl.length) :=
  ⟨⟨rfl, by intro i hi; have : i = 0 := by simpa [line1] using hi
            subst this; decide, by norm_num [line1]⟩, fun k => by rcases k with _ | _ | _ | _ | k <;> rfl⟩

/-- the routine asks for four further evaluations and ends in the minimum, with the exact second derivative `4` in its quadratic model -/
example : ((List.range 5).map fun k => ((run line1 parabola (setup [1] (1 / 1000) 10 mem1) k).mode, (run line1 parabola (setup [1] (1 / 1000) 10 mem1) k).x,
      (run line1 parabola (setup [1] (1 / 1000) 10 mem1) k).l)) =
    [(1, [0], [(1, [])]), (-1, [0], [(1, [])]), (1, [1 / 4], [(4, [])]), (-1, [1 / 4], [(4, [])]), (0, [1 / 4], [(4, [])])] := by
  decide +kernel

/-- one that never sees a smaller value: ten shorter steps, then the step is accepted -/
example : ((List.range 12).map fun k => (run line1 (fun _ => (1, [1])) (setup [1] (1 / 1000) 2 mem1) k).mode) = [1, 1, 1, 1, 1, 1, 1, 1, 1, 1, 1, 0] := by
  decide +kernel

end Splinepy.Slsqp
