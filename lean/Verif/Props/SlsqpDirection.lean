import Verif.Props.Lsq

/-!
# What the fallback search of `proximities` reports is true

With the modelled solver of the subproblem, each search direction is the exact minimiser of the quadratic model inside of the bounds. The report that there is no direction of descent
means that the point meets the first order conditions of the constrained minimum.
-/

namespace Splinepy.Slsqp

variable {K : Type} [Field K] [LinearOrder K] [IsStrictOrderedRing K]

/-! ### Specification -/

/-- `y - x` -/
def Spec.difference (y x : List K) : List K := List.zipWith (· - ·) y x

/-- first order condition of a minimum in the box: the derivative in the direction of each point of the box is not negative -/
def Spec.Stationary (lo hi x g : List K) : Prop := ∀ y, Spec.Inside lo hi y → 0 ≤ (List.zipWith (· * ·) g (Spec.difference y x)).sum

/-! ### The direction -/

omit [LinearOrder K] [IsStrictOrderedRing K] in
theorem difference_eq (y x : List K) : Spec.difference y x = axpy (-1) x y := by
  unfold Spec.difference axpy
  rw [List.zipWith_comm]
  congr 1
  funext a b
  ring

/-- the final call of `bound` in `lsq` changes nothing -/
theorem bound_listed (n : ℕ) (u v : List K) (x : ℕ → K) (hu : u.length = n) (hv : v.length = n) (h : Spec.Inside u v (Lsq.listed n x)) : bound u v x = Lsq.listed n x := by
  have hl : (bound u v x).length = n := by rw [bound_length _ _ _ (by omega), hu]
  refine List.ext_getElem (by rw [hl, Lsq.listed_length]) fun i h1 h2 => ?_
  have hi : i < n := by omega
  have e1 := bound_getD u v x (by omega) i (by omega)
  have e2 := h.2 i (by omega)
  rw [Lsq.listed_getD n x i hi] at e2
  have e3 : bound1 (u.getD i 0) (v.getD i 0) (x i) = x i := by
    unfold bound1
    rw [if_neg (not_lt.2 e2.1), if_neg (not_lt.2 e2.2)]
  rw [e3] at e1
  have e4 := Lsq.listed_getD n x i hi
  rw [List.getD_eq_getElem _ _ h1] at e1
  rw [List.getD_eq_getElem _ _ h2] at e4
  rw [e1, e4]

/-- the environment of the search with the modelled solver of the subproblem -/
structure Solves (e : Env K) : Prop where
  box : Box e
  vars : 0 < e.xl.length
  lsq : ∃ (sqrt : K → K) (mem : Lsq.State K), Lsq.Spec.SquareRoot sqrt ∧ e.lsq = Lsq.lsq sqrt mem

/-- C133: the subproblem is never reported as infeasible (the augmented problem is not used), and a direction that is returned minimises the quadratic model among all steps that stay
inside of the bounds. -/
theorem direction_exact (e : Env K) (he : Solves e) (s : State K) (hr : Ready e s) :
    (direction e s).2 = false ∧ ((direction e s).1.mode = 1 ∨ (direction e s).1.mode = 3 ∨ (direction e s).1.mode = 5) ∧
      ((direction e s).1.mode = 1 → ∀ y, Spec.Inside e.xl e.xu y → Lsq.Spec.model s.l s.g (direction e s).1.s ≤ Lsq.Spec.model s.l s.g (Spec.difference y s.x)) := by
  obtain ⟨sqrt, mem, hs, hlsq⟩ := he.lsq
  have hlx : s.x.length = e.xu.length := by rw [hr.inside.1, he.box.len]
  have hu : (axpy (-1) s.x e.xl).length = s.g.length := by rw [axpy_length _ _ _ hr.inside.1, hr.glen]
  have hv : (axpy (-1) s.x e.xu).length = s.g.length := by rw [axpy_length _ _ _ hlx, he.box.len, hr.glen]
  have hshift : ∀ y, Spec.Inside e.xl e.xu y → Spec.Inside (axpy (-1) s.x e.xl) (axpy (-1) s.x e.xu) (Spec.difference y s.x) := by
    intro y hy
    have hxy : s.x.length = y.length := by rw [hr.inside.1, hy.1]
    rw [difference_eq]
    refine ⟨by rw [axpy_length _ _ _ hxy, axpy_length _ _ _ hr.inside.1, hy.1], fun i hi => ?_⟩
    rw [axpy_length _ _ _ hr.inside.1] at hi
    rw [axpy_getD _ _ _ hr.inside.1, axpy_getD _ _ _ hlx, axpy_getD _ _ _ hxy]
    obtain ⟨h1, h2⟩ := hy.2 i hi
    exact ⟨by linarith, by linarith⟩
  obtain ⟨a, b, c⟩ := Lsq.lsq_spec hs mem s.l s.g (axpy (-1) s.x e.xl) (axpy (-1) s.x e.xu) hr.shape hr.pos (by rw [hr.llen, hr.glen]) hu (by rw [hr.glen]; exact he.vars)
  have h4 : (Lsq.lsq sqrt mem s.l s.g (axpy (-1) s.x e.xl) (axpy (-1) s.x e.xu)).2 ≠ 4 := fun h => b h _ (hshift s.x hr.inside)
  unfold direction
  dsimp only
  rw [hlsq]
  generalize Lsq.lsq sqrt mem s.l s.g (axpy (-1) s.x e.xl) (axpy (-1) s.x e.xu) = r at *
  rw [if_neg h4]
  refine ⟨rfl, by dsimp only; omega, fun h y hy => ?_⟩
  dsimp only at h ⊢
  obtain ⟨a1, a2⟩ := a h
  rw [bound_listed s.g.length _ _ _ hu hv a1]
  exact a2 _ (hshift y hy)

omit [LinearOrder K] [IsStrictOrderedRing K] in
theorem model_eq (l : Factors K) (g x : List K) : Lsq.Spec.model l g x = Spec.quad l x + 2 * dot g x := rfl

omit [IsStrictOrderedRing K] [LinearOrder K] in
theorem quad_scal (c : K) : ∀ (l : Factors K) (x : List K), Spec.quad l (scal c x) = c ^ 2 * Spec.quad l x
  | [], x => by simp [Spec.quad]
  | _ :: _, [] => by simp [Spec.quad, scal]
  | (d, col) :: l, x :: xs => by
    have e : ∀ (a b : List K), (List.zipWith (· * ·) a (scal c b)).sum = c * (List.zipWith (· * ·) a b).sum := by
      intro a
      induction a with
      | nil => intro b; simp
      | cons p a ih =>
        intro b
        cases b with
        | nil => simp [scal]
        | cons q b =>
          change (List.zipWith (· * ·) (p :: a) ((c * q) :: scal c b)).sum = _
          rw [List.zipWith_cons_cons, List.sum_cons, ih, List.zipWith_cons_cons, List.sum_cons]
          ring
    change Spec.quad ((d, col) :: l) ((c * x) :: scal c xs) = _
    rw [Spec.quad, Spec.quad, quad_scal c l xs, e]
    ring

omit [IsStrictOrderedRing K] [LinearOrder K] in
theorem dot_scal (c : K) : ∀ (a b : List K), dot a (scal c b) = c * dot a b := by
  intro a
  induction a with
  | nil => intro b; simp [dot]
  | cons x a ih =>
    intro b
    cases b with
    | nil => simp [dot, scal]
    | cons y b =>
      change dot (x :: a) ((c * y) :: scal c b) = _
      rw [dot_cons, dot_cons, ih]
      ring

/-- if no step reduces the quadratic model, the point is stationary -/
theorem stationary_of_model (lo hi : List K) (l : Factors K) (g x : List K) (hp : Pos l) (hx : Spec.Inside lo hi x)
    (h : ∀ y, Spec.Inside lo hi y → 0 ≤ Lsq.Spec.model l g (Spec.difference y x)) : Spec.Stationary lo hi x g := by
  intro y hy
  change 0 ≤ dot g (Spec.difference y x)
  by_contra hneg
  push Not at hneg
  obtain ⟨d, hd⟩ : ∃ d, d = Spec.difference y x := ⟨_, rfl⟩
  have hxy : x.length = y.length := by rw [hx.1, hy.1]
  have hdl : d.length = x.length := by rw [hd, difference_eq, axpy_length _ _ _ hxy, hxy]
  have key : ∀ a : K, 0 ≤ a → a ≤ 1 → 0 ≤ a ^ 2 * Spec.quad l d + 2 * (a * dot g d) := by
    intro a h0 h1
    have e1 : Spec.difference (axpy 1 (scal a d) x) x = scal a d := by
      rw [difference_eq]
      refine List.ext_getElem ?_ fun i i1 i2 => ?_
      · rw [axpy_length _ _ _ (by rw [axpy_length _ _ _ (by rw [scal_length, hdl])]), axpy_length _ _ _ (by rw [scal_length, hdl]), scal_length, hdl]
      · simp [axpy]
    have e2 : Spec.Inside lo hi (axpy 1 (scal a d) x) := by
      refine ⟨by rw [axpy_length _ _ _ (by rw [scal_length, hdl]), hx.1], fun i hi' => ?_⟩
      rw [axpy_getD _ _ _ (by rw [scal_length, hdl]), scal_getD, hd, difference_eq, axpy_getD _ _ _ hxy]
      obtain ⟨p1, p2⟩ := hx.2 i hi'
      obtain ⟨q1, q2⟩ := hy.2 i hi'
      constructor
      · nlinarith [mul_nonneg h0 (sub_nonneg.2 q1), mul_nonneg (sub_nonneg.2 h1) (sub_nonneg.2 p1)]
      · nlinarith [mul_nonneg h0 (sub_nonneg.2 q2), mul_nonneg (sub_nonneg.2 h1) (sub_nonneg.2 p2)]
    have := h _ e2
    rwa [e1, model_eq, quad_scal, dot_scal] at this
  have hq := quad_nonneg l d hp
  rw [← hd] at hneg
  obtain ⟨a, ha⟩ : ∃ a, a = -dot g d / (Spec.quad l d + -dot g d) := ⟨_, rfl⟩
  have hden : 0 < Spec.quad l d + -dot g d := by linarith
  have a0 : 0 < a := by rw [ha]; exact div_pos (by linarith) hden
  have a1 : a ≤ 1 := by rw [ha, div_le_one hden]; linarith
  have h1 := key a a0.le a1
  have h2 : a * (Spec.quad l d + -dot g d) = -dot g d := by rw [ha]; field_simp
  have h3 : a ^ 2 * Spec.quad l d + 2 * (a * dot g d) = a * (a * dot g d + dot g d) := by
    have : a * Spec.quad l d = -dot g d + a * dot g d := by linear_combination h2
    linear_combination a * this
  rw [h3] at h1
  have h4 : a * dot g d + dot g d < 0 := by nlinarith
  have := mul_neg_of_pos_of_neg a0 h4
  linarith

/-- what an attempt to find a direction guarantees with the modelled solver -/
def AttemptExact (e : Env K) (s : State K) : Outcome K → Prop
  | .exit r => r.x = s.x ∧ r.g = s.g ∧ r.acc = s.acc ∧ (r.mode = 9 ∨ r.mode = 3 ∨ r.mode = 5 ∨ r.mode = 0 ∧ r.l = s.l ∧
      ∀ y, Spec.Inside e.xl e.xu y → -2 * s.acc < Lsq.Spec.model s.l s.g (Spec.difference y s.x))
  | .noDescent _ r => r.x = s.x ∧ r.g = s.g ∧ r.acc = s.acc ∧ Spec.Stationary e.xl e.xu s.x s.g
  | .search r => r.x0 = s.x ∧ r.v = s.g ∧ r.g = s.g ∧ r.acc = s.acc ∧ r.h3 = dot s.g r.s ∧ r.h3 < 0 ∧
      ∀ y, Spec.Inside e.xl e.xu y → Lsq.Spec.model s.l s.g r.s ≤ Lsq.Spec.model s.l s.g (Spec.difference y s.x)

theorem derivative_same (b : Bool) (r : State K) : (derivative b r).x = r.x ∧ (derivative b r).g = r.g ∧ (derivative b r).acc = r.acc ∧ (derivative b r).l = r.l ∧
    (derivative b r).s = r.s ∧ (derivative b r).x0 = r.x ∧ (derivative b r).v = r.g ∧ ((derivative b r).mode ≠ 0 → (derivative b r).h3 = dot r.g r.s) ∧
    ((derivative b r).mode = 0 → |dot r.g r.s| < r.acc) := by
  unfold derivative
  dsimp only
  split_ifs with h
  · exact ⟨rfl, rfl, rfl, rfl, rfl, rfl, rfl, fun h => absurd rfl h, fun _ => h.1⟩
  · exact ⟨rfl, rfl, rfl, rfl, rfl, rfl, rfl, fun _ => by ring, fun h => absurd h (by norm_num)⟩

theorem augmented_acc (e : Env K) : ∀ (k : ℕ) (p : K) (s : State K), (augmented e k p s).acc = s.acc
  | 0, p, s => by
    rw [augmented]
    split_ifs <;> rfl
  | k + 1, p, s => by
    rw [augmented]
    split_ifs
    · exact augmented_acc e k _ _
    · rfl

theorem direction_acc (e : Env K) (s : State K) : (direction e s).1.acc = s.acc := by
  unfold direction
  dsimp only
  split_ifs
  · exact augmented_acc e _ _ _
  · rfl

/-- C133: an iteration either starts a line search along the minimiser of the quadratic model, which is a direction of descent, or the point is stationary, or no step reduces the quadratic
model by more than the accuracy, or a limit is reached. -/
theorem attempt_exact (e : Env K) (he : Solves e) (s : State K) (hr : Ready e s) : AttemptExact e s (attempt e s) := by
  have hr' : Ready e { s with iter := s.iter + 1, mode := 9 } := ⟨hr.inside, hr.glen, hr.inexact, hr.shape, hr.pos, hr.llen⟩
  obtain ⟨d1, d2, d3⟩ := direction_exact e he _ hr'
  obtain ⟨a1, a2, a3, a4, a5, a6, a7, a8, a9⟩ := direction_spec e he.box { s with iter := s.iter + 1, mode := 9 } hr.inside
  have ha := direction_acc e { s with iter := s.iter + 1, mode := 9 }
  unfold attempt
  dsimp only
  split_ifs with h1 h2 h3 h4
  · exact ⟨rfl, rfl, rfl, Or.inl rfl⟩
  all_goals
    generalize direction e { s with iter := s.iter + 1, mode := 9 } = r at *
    obtain ⟨r, badlin⟩ := r
    dsimp only at *
  · exact ⟨a1, a2, ha, by omega⟩
  all_goals
    have hm : r.mode = 1 := not_not.1 h2
    have hopt := d3 hm
    obtain ⟨b1, b2, b3, b4, b5, b6, b7, b8, b9⟩ := derivative_same badlin r
    have hq := quad_nonneg s.l r.s hr.pos
  · refine ⟨b1.trans a1, b2.trans a2, b3.trans ha, Or.inr (Or.inr (Or.inr ⟨h3, b4.trans a4, fun y hy => lt_of_lt_of_le ?_ (hopt y hy)⟩))⟩
    have := (abs_lt.1 (b9 h3)).1
    rw [a2, ha] at this
    rw [model_eq]
    linarith
  · refine ⟨b1.trans a1, b2.trans a2, b3.trans ha, stationary_of_model _ _ s.l _ _ hr.pos hr.inside fun y hy => le_trans ?_ (hopt y hy)⟩
    have := b8 h3
    rw [a2] at this
    rw [this] at h4
    rw [model_eq]
    linarith
  · refine ⟨b6.trans a1, b7.trans a2, b2.trans a2, b3.trans ha, ?_, not_le.1 h4, fun y hy => ?_⟩
    · rw [b8 h3, a2, b5]
    · rw [b5]; exact hopt y hy

/-! ### Whole runs -/

/-- what holds between the calls, besides `Inv` -/
structure Descent (e : Env K) (a : K) (s : State K) : Prop where
  acc : s.acc = a
  descent : Spec.Asks s → dot s.v s.s < 0
  value : s.mode = 1 → dot s.v s.s = s.h3

/-- what the end of the search at the point `x` with the gradient `g` means -/
def Spec.Reports (e : Env K) (a : K) (g : List K) (r : State K) : Prop :=
  r.mode = 9 ∨ r.mode = 3 ∨ r.mode = 5 ∨ Spec.Stationary e.xl e.xu r.x g ∧ (r.mode = 8 ∨ r.mode = 0) ∨
    r.mode = 0 ∧ ((∀ y, Spec.Inside e.xl e.xu y → -2 * a < Lsq.Spec.model r.l g (Spec.difference y r.x)) ∨ |r.f - r.f0| < a ∨ e.norm r.s < a)

theorem beginSearch_exact (e : Env K) (s r : State K) (hi : r.iexact = false) (h : AttemptExact e s (.search r)) :
    Descent e s.acc (beginSearch e r) ∧ Spec.Asks (beginSearch e r) := by
  obtain ⟨a1, a2, a3, a4, a5, a6, _⟩ := h
  unfold beginSearch
  rw [if_neg (by rw [hi]; simp)]
  unfold trial
  dsimp only
  refine ⟨⟨a4, fun _ => ?_, fun _ => ?_⟩, Or.inl rfl⟩
  · dsimp only; rw [dot_scal, a2, one_mul, ← a5]; exact a6
  · dsimp only; rw [dot_scal, a2, a5]

/-- what an iteration guarantees with the modelled solver -/
def IterationExact (e : Env K) (s r : State K) : Prop :=
  Descent e s.acc r ∧ (¬Spec.Asks r → Spec.Reports e s.acc s.g r)

omit [IsStrictOrderedRing K] in
theorem IterationExact.of_eq {e : Env K} {s s' r : State K} (h : IterationExact e s' r) (h1 : s'.acc = s.acc) (h2 : s'.g = s.g) : IterationExact e s r := by
  unfold IterationExact at h ⊢
  rwa [h1, h2] at h

theorem exit_exact (e : Env K) (s r : State K) (h : AttemptExact e s (.exit r)) : IterationExact e s r := by
  obtain ⟨h1, h2, h3, h4⟩ := h
  have hna : ¬Spec.Asks r := by unfold Spec.Asks; omega
  refine ⟨⟨h3, fun h => absurd h hna, fun h => absurd (Or.inl h) hna⟩, fun _ => ?_⟩
  unfold Spec.Reports
  rcases h4 with h | h | h | ⟨h, h5, h6⟩
  · exact Or.inl h
  · exact Or.inr (Or.inl h)
  · exact Or.inr (Or.inr (Or.inl h))
  · exact Or.inr (Or.inr (Or.inr (Or.inr ⟨h, Or.inl (by rw [h5, h1]; exact h6)⟩)))

theorem iteration_exact (e : Env K) (he : Solves e) : ∀ (k : ℕ) (s : State K), Ready e s → IterationExact e s (iteration e k s)
  | 0, s, hr => by
    have h := attempt_exact e he s hr
    have h' := attempt_ok e he.box _ s hr rfl
    rw [iteration]
    generalize attempt e s = o at h h'
    cases o with
    | exit r => exact exit_exact e s r h
    | noDescent b r =>
      obtain ⟨h1, h2, h3, h4⟩ := h
      have hm := relaxed_mode e b { r with ireset := r.ireset + 1 }
      have hna : ¬Spec.Asks (relaxed e b { r with ireset := r.ireset + 1 }) := by unfold Spec.Asks; omega
      refine ⟨⟨h3, fun h => absurd h hna, fun h => absurd (Or.inl h) hna⟩, fun _ => Or.inr (Or.inr (Or.inr (Or.inl ⟨?_, hm.symm⟩)))⟩
      change Spec.Stationary e.xl e.xu r.x s.g
      rw [h1]
      exact h4
    | search r =>
      obtain ⟨a, b⟩ := beginSearch_exact e s r h'.1.inexact h
      exact ⟨a, fun h => absurd b h⟩
  | k + 1, s, hr => by
    have h := attempt_exact e he s hr
    have h' := attempt_ok e he.box _ s hr rfl
    rw [iteration]
    generalize attempt e s = o at h h'
    cases o with
    | exit r => exact exit_exact e s r h
    | noDescent b r =>
      obtain ⟨h1, h2, h3, h4⟩ := h
      obtain ⟨i1, i2, i3⟩ := identity_spec (K := K) r.x.length
      have := iteration_exact e he k { r with ireset := r.ireset + 1, l := identity r.x.length } ⟨h'.1.inside, h'.1.glen, h'.1.inexact, i1, i2, i3.trans h'.1.inside.1⟩
      exact this.of_eq h3 h2
    | search r =>
      obtain ⟨a, b⟩ := beginSearch_exact e s r h'.1.inexact h
      exact ⟨a, fun h => absurd b h⟩

theorem damped_acc (s : State K) : (damped s).acc = s.acc := by
  unfold damped
  dsimp only
  split_ifs <;> rfl

/-- the update of the matrix is never singular -/
theorem gradient_exact (e : Env K) (he : Solves e) (M : ℕ) (s : State K) (h : Inv e M s) (hm : s.mode = -1) (hd : Descent e s.acc s) :
    IterationExact e s (gradient e s) := by
  have hr := h.ready
  have hs := h.slen (Or.inr hm)
  have hv := h.vlen (Or.inr hm)
  have d := damped_spec s hr.shape hr.pos (by rw [hs, hr.llen]) (by rw [hv, hr.llen]) (by rw [hr.glen, hr.llen])
  obtain ⟨s1, s2, s3, s4, s5, s6, s7, s8, s9⟩ := damped_same s
  have hvl : (damped s).v.length = s.l.length := by rw [s9]; exact product_length _ _ hr.shape (by rw [hs, hr.llen])
  have hq : 0 < Spec.quad s.l s.s := by
    refine lt_of_le_of_ne (quad_nonneg s.l s.s hr.pos) fun h0 => ?_
    have h1 := quad_zero s.l s.s hr.pos (by rw [hs, hr.llen]) h0.symm
    have h2 := hd.descent (Or.inr hm)
    have h3 : ∀ (v w : List K), (∀ i, w.getD i 0 = 0) → dot v w = 0 := by
      intro v
      induction v with
      | nil => intro w _; simp [dot]
      | cons p v ih =>
        intro w hw
        cases w with
        | nil => simp [dot]
        | cons q w =>
          rw [dot_cons, ih w fun i => by simpa using hw (i + 1)]
          have : q = 0 := by simpa using hw 0
          rw [this]
          ring
    rw [h3 _ _ h1] at h2
    exact absurd h2 (lt_irrefl _)
  have hne : ¬((damped s).h1 = 0 ∨ (damped s).h2 = 0) := by
    have h2 : 0 < (damped s).h2 := by rw [d.2.1]; exact hq
    have h1 : 0 < (damped s).h1 := lt_of_lt_of_le (by positivity) d.2.2.2.1
    exact not_or.2 ⟨h1.ne', h2.ne'⟩
  unfold gradient
  dsimp only
  rw [if_neg hne, s1]
  obtain ⟨a1, a2, a3⟩ := ldl_pos e.eps he.box.eps s.l (damped s).u (1 / (damped s).h1) hr.shape hr.pos d.2.2.2.2
  obtain ⟨b1, b2, b3⟩ := ldl_pos e.eps he.box.eps _ (damped s).v (-1 / (damped s).h2) a1 a2 (by rw [a3, hvl])
  have := iteration_exact e he (5 - (damped s).ireset)
    { damped s with l := ldl e.eps (ldl e.eps s.l (damped s).u (1 / (damped s).h1)) (damped s).v (-1 / (damped s).h2) } ⟨by dsimp only; rw [s3]; exact hr.inside,
      by dsimp only; rw [s4]; exact hr.glen, by dsimp only; rw [s5]; exact hr.inexact, b1, b2, by dsimp only; rw [b3, a3]; exact hr.llen⟩
  exact this.of_eq (damped_acc s) s4

theorem lineTest_exact (e : Env K) (a : K) (s : State K) (hd : Descent e a s) (hm : s.mode = 1) (h3 : s.h3 < 0) (g : List K) :
    Descent e a (lineTest e s) ∧ (¬Spec.Asks (lineTest e s) → Spec.Reports e a g (lineTest e s)) := by
  have hv := hd.value hm
  unfold lineTest
  split_ifs with h
  · unfold accept
    refine ⟨⟨hd.acc, fun _ => hd.descent (Or.inl hm), fun h => ?_⟩, fun hna => ?_⟩
    · dsimp only at h
      split_ifs at h <;> norm_num at h
    · unfold Spec.Asks at hna
      dsimp only at hna
      unfold Spec.Reports
      dsimp only
      split_ifs at hna ⊢ with hc
      · refine Or.inr (Or.inr (Or.inr (Or.inr ⟨rfl, Or.inr ?_⟩)))
        rw [hd.acc] at hc
        exact hc.1
      · exact absurd (Or.inr rfl) hna
  · push Not at h
    have hpos : 0 < max (s.h3 / (2 * (s.h3 - s.h1))) (1 / 10 : K) := lt_of_lt_of_le (by norm_num) (le_max_right _ _)
    unfold trial
    refine ⟨⟨hd.acc, fun _ => ?_, fun _ => ?_⟩, fun hna => absurd (Or.inl rfl) hna⟩
    · dsimp only
      rw [dot_scal, hv]
      exact mul_neg_of_pos_of_neg hpos h3
    · dsimp only
      rw [dot_scal, hv]

theorem prepare_descent (e : Env K) (a : K) (value : K) (grad : List K) (s : State K) (h : Descent e a s) : Descent e a (prepare e value grad s) := by
  unfold prepare
  dsimp only
  split_ifs <;> exact ⟨h.acc, h.descent, h.value⟩

theorem call_exact (e : Env K) (he : Solves e) (M : ℕ) (a : K) (s : State K) (h : Inv e M s) (hd : Descent e a s) (ha : Spec.Asks s) (g : List K)
    (hgr : s.mode = -1 → s.g = g) : Descent e a (call e s) ∧ (¬Spec.Asks (call e s) → Spec.Reports e a g (call e s)) := by
  unfold call
  rcases ha with hm | hm
  · rw [if_neg (by omega), if_neg (by omega)]
    dsimp only
    rw [if_neg (by rw [h.ready.inexact]; simp)]
    exact lineTest_exact e a { s with t := s.f, h1 := s.f - s.t0 } ⟨hd.acc, hd.descent, hd.value⟩ hm (h.searching hm).1.descent g
  · rw [if_pos (by omega)]
    have := gradient_exact e he M s h hm ⟨rfl, hd.descent, hd.value⟩
    unfold IterationExact at this
    rwa [hd.acc, hgr hm] at this

theorem first_exact (e : Env K) (he : Solves e) (M : ℕ) (x : List K) (tolerance : K) (mem : State K) (value : K) (grad : List K) (hg : grad.length = e.xl.length) :
    Descent e (tolerance * tolerance * (1 / 2)) (call e (prepare e value grad (setup x tolerance M mem))) ∧
      (¬Spec.Asks (call e (prepare e value grad (setup x tolerance M mem))) →
        Spec.Reports e (tolerance * tolerance * (1 / 2)) grad (call e (prepare e value grad (setup x tolerance M mem)))) := by
  have hx : Spec.Inside e.xl e.xu (bound e.xl e.xu fun i => x.getD i 0) :=
    ⟨bound_length _ _ _ he.box.len, fun i hi => by rw [bound_getD _ _ _ he.box.len i hi]; exact bound1_mem _ _ _ (he.box.le i hi)⟩
  have hp : ∃ s, prepare e value grad (setup x tolerance M mem) = s ∧ s.mode = 0 ∧ s.acc = tolerance * tolerance * (1 / 2) ∧ s.x = (bound e.xl e.xu fun i => x.getD i 0) ∧
      s.g = grad := ⟨_, rfl, rfl, rfl, rfl, rfl⟩
  obtain ⟨s, h0, h1, h2, h3, h4⟩ := hp
  rw [h0]
  have hnn : 0 ≤ s.acc := by rw [h2]; exact mul_nonneg (mul_self_nonneg _) (by norm_num)
  have hc : call e s = iteration e 4 { start s with ireset := 1, l := identity s.x.length } := by
    unfold call
    rw [if_neg (by omega), if_pos h1]
    rfl
  obtain ⟨i1, i2, i3⟩ := identity_spec (K := K) s.x.length
  have := iteration_exact e he 4 { start s with ireset := 1, l := identity s.x.length }
    ⟨by rw [← h3] at hx; exact hx, by rw [← h4] at hg; exact hg, by simp [start, hnn], i1, i2, by rw [← h3] at hx; exact i3.trans hx.1⟩
  rw [hc]
  unfold IterationExact at this
  have e1 : ({ start s with ireset := 1, l := identity s.x.length } : State K).acc = tolerance * tolerance * (1 / 2) := by
    change |s.acc| = _
    rw [abs_of_nonneg hnn, h2]
  have e2 : ({ start s with ireset := 1, l := identity s.x.length } : State K).g = grad := h4
  rwa [e1, e2] at this

theorem run_exact (e : Env K) (he : Solves e) (M : ℕ) (x : List K) (tolerance : K) (mem : State K) (objective : ℕ → K × List K)
    (hg : ∀ k, (objective k).2.length = e.xl.length) : ∀ k, (∀ j < k, Spec.Asks (run e objective (setup x tolerance M mem) j)) →
      Descent e (tolerance * tolerance * (1 / 2)) (run e objective (setup x tolerance M mem) k) := by
  intro k
  induction k with
  | zero => intro _; exact (first_exact e he M x tolerance mem _ _ (hg 0)).1
  | succ k ih =>
    intro ha
    obtain ⟨h1, _⟩ := run_ok e he.box M x tolerance mem objective hg k fun j hj => ha j (by omega)
    have h2 := ih fun j hj => ha j (by omega)
    have hk := ha k (by omega)
    rw [run]
    generalize run e objective (setup x tolerance M mem) k = s at *
    obtain ⟨p1, p2, p3, p4⟩ := prepare_ok e he.box M (objective (k + 1)).1 (objective (k + 1)).2 (hg (k + 1)) s h1
    exact (call_exact e he M _ _ p1 (prepare_descent e _ _ _ _ h2) (by unfold Spec.Asks; rw [p2]; exact hk) _ fun _ => rfl).1

/-- C133: when the search ends, its last mode is true of the last point and of the last gradient `g` that it was given: `8` is reported only at stationary points; `0` only at stationary
points, or if no step inside of the bounds reduces the quadratic model by the accuracy `tolerance² / 2`, or if the last line search changed the objective or the point by less than that. All
other ends are the limit of the iterations (`9`) and failures of the solver of the subproblem (`3`, `5`). -/
theorem slsqp_reports (e : Env K) (he : Solves e) (M : ℕ) (x : List K) (tolerance : K) (mem : State K) (objective : ℕ → K × List K)
    (hg : ∀ k, (objective k).2.length = e.xl.length) (k : ℕ) (hk : ∀ j < k, Spec.Asks (run e objective (setup x tolerance M mem) j))
    (hend : ¬Spec.Asks (run e objective (setup x tolerance M mem) k)) :
    Spec.Reports e (tolerance * tolerance * (1 / 2)) (objective k).2 (run e objective (setup x tolerance M mem) k) := by
  cases k with
  | zero => exact (first_exact e he M x tolerance mem _ _ (hg 0)).2 hend
  | succ k =>
    obtain ⟨h1, _⟩ := run_ok e he.box M x tolerance mem objective hg k fun j hj => hk j (by omega)
    have h2 := run_exact e he M x tolerance mem objective hg k fun j hj => hk j (by omega)
    have ha := hk k (by omega)
    rw [run] at hend ⊢
    generalize run e objective (setup x tolerance M mem) k = s at *
    obtain ⟨p1, p2, p3, p4⟩ := prepare_ok e he.box M (objective (k + 1)).1 (objective (k + 1)).2 (hg (k + 1)) s h1
    refine (call_exact e he M _ _ p1 (prepare_descent e _ _ _ _ h2) (by unfold Spec.Asks; rw [p2]; exact ha) _ fun hm => ?_).2 hend
    rw [p2] at hm
    unfold prepare
    dsimp only
    rw [if_neg (by omega), if_neg (by omega), if_pos hm]

end Splinepy.Slsqp
