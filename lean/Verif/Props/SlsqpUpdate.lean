import Verif.Props.Slsqp

/-!
C131: what the matrix of the quadratic model is after each call of a search, in terms of the gradients that the routine was given.
-/

namespace Splinepy.Slsqp

variable {K : Type} [Field K] [LinearOrder K]

/-- the parts of a state that the subproblem does not change -/
def Kept (s r : State K) : Prop := r.x = s.x ∧ r.l = s.l ∧ r.ireset = s.ireset ∧ r.iexact = s.iexact

theorem augmented_kept (e : Env K) : ∀ (k : ℕ) (p : K) (s : State K), Kept s (augmented e k p s)
  | 0, p, s => by
    rw [augmented]
    split_ifs <;> exact ⟨rfl, rfl, rfl, rfl⟩
  | k + 1, p, s => by
    rw [augmented]
    split_ifs
    · exact augmented_kept e k _ _
    · exact ⟨rfl, rfl, rfl, rfl⟩

theorem augmented_mode (e : Env K) (h : ∀ l p g u v, (e.lsqAug l p g u v).2.2 ≠ -1) : ∀ (k : ℕ) (p : K) (s : State K), (augmented e k p s).mode ≠ -1
  | 0, p, s => by
    rw [augmented]
    split_ifs <;> exact h _ _ _ _ _
  | k + 1, p, s => by
    rw [augmented]
    split_ifs
    · exact augmented_mode e h k _ _
    · exact h _ _ _ _ _

theorem direction_kept (e : Env K) (s : State K) : Kept s (direction e s).1 := by
  unfold direction
  dsimp only
  split_ifs
  · exact augmented_kept e 5 100 _
  · exact ⟨rfl, rfl, rfl, rfl⟩

theorem direction_mode (e : Env K) (h : ∀ l g u v, (e.lsq l g u v).2 ≠ -1) (h' : ∀ l p g u v, (e.lsqAug l p g u v).2.2 ≠ -1) (s : State K) : (direction e s).1.mode ≠ -1 := by
  unfold direction
  dsimp only
  split_ifs
  · exact augmented_mode e h' 5 100 _
  · exact h _ _ _ _

/-- what is known about the result of the part of an iteration before the line search -/
def OutcomeKept (s : State K) : Outcome K → Prop
  | .exit r => Kept s r ∧ ¬ Spec.Asks r
  | .noDescent _ r => Kept s r
  | .search r => Kept s r ∧ r.v = r.g

theorem derivative_kept (b : Bool) (s : State K) : Kept s (derivative b s) ∧ (derivative b s).v = (derivative b s).g := by
  unfold derivative
  dsimp only
  split_ifs <;> exact ⟨⟨rfl, rfl, rfl, rfl⟩, rfl⟩

theorem attempt_kept (e : Env K) (h : ∀ l g u v, (e.lsq l g u v).2 ≠ -1) (h' : ∀ l p g u v, (e.lsqAug l p g u v).2.2 ≠ -1) (s : State K) : OutcomeKept s (attempt e s) := by
  unfold attempt
  dsimp only
  have d := direction_kept e { s with iter := s.iter + 1, mode := 9 }
  have m := direction_mode e h h' { s with iter := s.iter + 1, mode := 9 }
  obtain ⟨c, cv⟩ := derivative_kept (direction e { s with iter := s.iter + 1, mode := 9 }).2 (direction e { s with iter := s.iter + 1, mode := 9 }).1
  have t : Kept s (derivative (direction e { s with iter := s.iter + 1, mode := 9 }).2 (direction e { s with iter := s.iter + 1, mode := 9 }).1) :=
    ⟨c.1.trans d.1, c.2.1.trans d.2.1, c.2.2.1.trans d.2.2.1, c.2.2.2.trans d.2.2.2⟩
  split_ifs with h1 h2 h3 h4
  · refine ⟨⟨rfl, rfl, rfl, rfl⟩, ?_⟩
    rintro (hh | hh) <;> simp at hh
  · exact ⟨d, fun hh => hh.elim h2 m⟩
  · refine ⟨t, ?_⟩
    rintro (hh | hh) <;> rw [h3] at hh <;> simp at hh
  · exact t
  · exact ⟨t, cv⟩

theorem iteration_kept (e : Env K) (h : ∀ l g u v, (e.lsq l g u v).2 ≠ -1) (h' : ∀ l p g u v, (e.lsqAug l p g u v).2.2 ≠ -1) : ∀ (k : ℕ) (s : State K), s.iexact = false →
    ((iteration e k s).l = s.l ∨ ((iteration e k s).l = identity s.x.length ∧ s.ireset < (iteration e k s).ireset)) ∧
      s.ireset ≤ (iteration e k s).ireset ∧ (Spec.Asks (iteration e k s) → (iteration e k s).v = (iteration e k s).g)
  | 0, s, hi => by
    have a := attempt_kept e h h' s
    rw [iteration]
    cases hc : attempt e s with
    | exit r => rw [hc] at a; exact ⟨Or.inl a.1.2.1, a.1.2.2.1.ge, fun x => absurd x a.2⟩
    | noDescent b r =>
      rw [hc] at a
      refine ⟨Or.inl a.2.1, ?_, ?_⟩
      · change s.ireset ≤ r.ireset + 1
        have := a.2.2.1
        omega
      · intro x
        rcases relaxed_mode e b { r with ireset := r.ireset + 1 } with m | m <;> rcases x with x | x <;> dsimp only at x <;> rw [m] at x <;> simp at x
    | search r =>
      rw [hc] at a
      have hx : beginSearch e r = trial { r with line := 0, alpha := 1 } := by
        unfold beginSearch
        rw [if_neg (by rw [a.1.2.2.2, hi]; simp)]
      dsimp only
      rw [hx]
      exact ⟨Or.inl a.1.2.1, a.1.2.2.1.ge, fun _ => a.2⟩
  | k + 1, s, hi => by
    have a := attempt_kept e h h' s
    rw [iteration]
    cases hc : attempt e s with
    | exit r => rw [hc] at a; exact ⟨Or.inl a.1.2.1, a.1.2.2.1.ge, fun x => absurd x a.2⟩
    | noDescent b r =>
      rw [hc] at a
      obtain ⟨b1, b2, b3⟩ := iteration_kept e h h' k { r with ireset := r.ireset + 1, l := identity r.x.length } (by dsimp only; rw [a.2.2.2, hi])
      dsimp only at b1 b2 b3 ⊢
      have hs := a.2.2.1
      refine ⟨Or.inr ⟨?_, by omega⟩, by omega, b3⟩
      rw [← a.1]
      exact b1.elim id fun x => x.1
    | search r =>
      rw [hc] at a
      have hx : beginSearch e r = trial { r with line := 0, alpha := 1 } := by
        unfold beginSearch
        rw [if_neg (by rw [a.1.2.2.2, hi]; simp)]
      dsimp only
      rw [hx]
      exact ⟨Or.inl a.1.2.1, a.1.2.2.1.ge, fun _ => a.2⟩

theorem reset_kept (e : Env K) (h : ∀ l g u v, (e.lsq l g u v).2 ≠ -1) (h' : ∀ l p g u v, (e.lsqAug l p g u v).2.2 ≠ -1) (s : State K) (hi : s.iexact = false) :
    ((reset e s).l = s.l ∧ ¬ Spec.Asks (reset e s) ∨ (reset e s).l = identity s.x.length ∧ s.ireset < (reset e s).ireset) ∧
      (Spec.Asks (reset e s) → (reset e s).v = (reset e s).g) := by
  unfold reset
  dsimp only
  split_ifs with h1
  · have hn : ¬ Spec.Asks (relaxed e false { s with ireset := s.ireset + 1 }) := by
      intro x
      rcases relaxed_mode e false { s with ireset := s.ireset + 1 } with m | m <;> rcases x with x | x <;> rw [m] at x <;> simp at x
    exact ⟨Or.inl ⟨rfl, hn⟩, fun x => absurd x hn⟩
  · obtain ⟨b1, b2, b3⟩ := iteration_kept e h h' (5 - (s.ireset + 1)) { s with ireset := s.ireset + 1, l := identity s.x.length } hi
    dsimp only at b1 b2
    refine ⟨Or.inr ⟨b1.elim id fun x => x.1, by omega⟩, b3⟩

/-- while the routine asks for evaluations, the gradient that it keeps is the last one it was given -/
theorem run_gradient [IsStrictOrderedRing K] (e : Env K) (he : Box e) (h : ∀ l g u v, (e.lsq l g u v).2 ≠ -1) (h' : ∀ l p g u v, (e.lsqAug l p g u v).2.2 ≠ -1)
    (M : ℕ) (x : List K) (tolerance : K) (mem : State K) (objective : ℕ → K × List K) (hg : ∀ k, (objective k).2.length = e.xl.length) :
    ∀ k, (∀ j ≤ k, Spec.Asks (run e objective (setup x tolerance M mem) j)) →
      (run e objective (setup x tolerance M mem) k).v = (run e objective (setup x tolerance M mem) k).g
  | 0, ha => by
    have a0 := ha 0 le_rfl
    rw [run] at a0 ⊢
    have hc : call e (prepare e (objective 0).1 (objective 0).2 (setup x tolerance M mem)) = reset e (start (prepare e (objective 0).1 (objective 0).2 (setup x tolerance M mem))) := by
      unfold call
      rw [if_neg (by simp [prepare, setup]), if_pos (by simp [prepare, setup])]
    rw [hc] at a0 ⊢
    refine (reset_kept e h h' _ ?_).2 a0
    have : 0 ≤ tolerance * tolerance * (1 / 2) := mul_nonneg (mul_self_nonneg _) (by norm_num)
    simpa [start, prepare, setup] using this
  | k + 1, ha => by
    have ih := run_gradient e he h h' M x tolerance mem objective hg k fun j hj => ha j (by omega)
    have hk := ha k (by omega)
    have hk1 := ha (k + 1) le_rfl
    obtain ⟨inv, -⟩ := run_ok e he M x tolerance mem objective hg k fun j hj => ha j (by omega)
    rw [run] at hk1 ⊢
    generalize run e objective (setup x tolerance M mem) k = s at *
    obtain ⟨inv', hm, -, -⟩ := prepare_ok e he M (objective (k + 1)).1 (objective (k + 1)).2 (hg (k + 1)) s inv
    have hi := inv'.ready.inexact
    rcases hk with m | m
    · have hv : (prepare e (objective (k + 1)).1 (objective (k + 1)).2 s).v = (prepare e (objective (k + 1)).1 (objective (k + 1)).2 s).g := by
        unfold prepare
        dsimp only
        rw [if_neg (by omega), if_pos m]
        exact ih
      generalize prepare e (objective (k + 1)).1 (objective (k + 1)).2 s = p at *
      unfold call
      rw [if_neg (by omega), if_neg (by omega)]
      dsimp only
      rw [if_neg (by rw [hi]; simp)]
      unfold lineTest
      split_ifs <;> exact hv
    · generalize prepare e (objective (k + 1)).1 (objective (k + 1)).2 s = p at *
      have hc : call e p = gradient e p := by
        unfold call
        rw [if_pos (by omega)]
      rw [hc] at hk1 ⊢
      have hd := (damped_same p).2.2.2.2.1
      unfold gradient at hk1 ⊢
      dsimp only at hk1 ⊢
      split_ifs at hk1 ⊢ with h0
      · exact (reset_kept e h h' _ (hd.trans hi)).2 hk1
      · exact (iteration_kept e h h' _ _ (by dsimp only; exact hd.trans hi)).2.2 hk1

/-- the damped difference of the gradients -/
theorem damped_mix [IsStrictOrderedRing K] (s : State K) (hs : Shape s.l) (hp : Pos s.l) (h1 : s.s.length = s.l.length) (h2 : s.v.length = s.l.length) (h3 : s.g.length = s.l.length) :
    ∃ θ : K, 0 ≤ θ ∧ θ ≤ 1 ∧ (∀ w : List K, dot (damped s).u w = θ * (dot s.g w - dot s.v w) + (1 - θ) * dot (mulL s.l (mulD s.l (mulLt s.l s.s))) w) ∧
      (1 / 5 * Spec.quad s.l s.s ≤ dot s.g s.s - dot s.v s.s → θ = 1) ∧
      (dot s.g s.s - dot s.v s.s < 1 / 5 * Spec.quad s.l s.s → dot (damped s).u s.s = 1 / 5 * Spec.quad s.l s.s) := by
  have hv := product_length s.l s.s hs h1
  have hq : dot s.s (mulL s.l (mulD s.l (mulLt s.l s.s))) = Spec.quad s.l s.s := by rw [dot_product s.l s.s s.s hs h1 h1, bil_self]
  have hu : (axpy (-1) s.v s.g).length = s.l.length := by rw [axpy_length _ _ _ (by rw [h2, h3]), h3]
  have hnn := quad_nonneg s.l s.s hp
  have hd : ∀ w, dot (axpy (-1) s.v s.g) w = dot s.g w - dot s.v w := by
    intro w
    rw [dot_axpy _ _ _ _ (by rw [h2, h3])]
    ring
  have hsc : ∀ (c : K) (b a : List K), dot (scal c b) a = c * dot b a := by
    intro c b
    induction b with
    | nil => intro a; simp [dot, scal]
    | cons x b ih =>
      intro a
      cases a with
      | nil => simp [dot, scal]
      | cons y a =>
        change dot ((c * x) :: scal c b) (y :: a) = _
        rw [dot_cons, dot_cons, ih]
        ring
  have hd5 := (damped_spec s hs hp h1 h2 h3).2.2.1
  have hsd : dot s.s (axpy (-1) s.v s.g) = dot s.g s.s - dot s.v s.s := by rw [dot_comm, hd]
  rw [dot_comm] at hd5
  unfold damped at hd5 ⊢
  dsimp only at hd5 ⊢
  rw [hq, hsd] at hd5 ⊢
  split_ifs at hd5 ⊢ with hlt
  · have hlt' : dot s.g s.s - dot s.v s.s < 1 / 5 * Spec.quad s.l s.s := by linarith
    have hden : 0 < Spec.quad s.l s.s - (dot s.g s.s - dot s.v s.s) := by linarith
    refine ⟨(Spec.quad s.l s.s - Spec.quad s.l s.s * (1 / 5)) / (Spec.quad s.l s.s - (dot s.g s.s - dot s.v s.s)), ?_, ?_, ?_, ?_, ?_⟩
    · exact div_nonneg (by linarith) hden.le
    · rw [div_le_one hden]; linarith
    · intro w
      dsimp only
      rw [dot_axpy _ _ _ _ (by rw [scal_length, hu, hv]), hsc, hd]
    · intro hc
      exact absurd hlt' (not_lt.2 hc)
    · intro _
      dsimp only at hd5 ⊢
      rw [hd5]
      ring
  · refine ⟨1, zero_le_one, le_rfl, ?_, fun _ => rfl, ?_⟩
    · intro w
      dsimp only
      rw [hd]
      ring
    · intro hc
      exact absurd hc (not_lt.2 (by linarith [not_lt.1 hlt]))

/-- C131: after a call with a new gradient, the matrix of the quadratic model is the damped BFGS update: with the last step `s`, the difference of the new and the last gradient, damped by a
factor `θ` so that the curvature along `s` is at least a fifth of the old one, the matrix `B` becomes `B + u u' / (s' u) - B s s' B / (s' B s)`. Otherwise it is the identity, which is
counted as a reset, or the last step was zero and the search ends. -/
theorem slsqp_updates [IsStrictOrderedRing K] (e : Env K) (he : Box e) (h : ∀ l g u v, (e.lsq l g u v).2 ≠ -1) (h' : ∀ l p g u v, (e.lsqAug l p g u v).2.2 ≠ -1)
    (M : ℕ) (x : List K) (tolerance : K) (mem : State K) (objective : ℕ → K × List K) (hg : ∀ k, (objective k).2.length = e.xl.length)
    (k : ℕ) (hk : ∀ j ≤ k, Spec.Asks (run e objective (setup x tolerance M mem) j)) (hm : (run e objective (setup x tolerance M mem) k).mode = -1)
    (a b : State K) (ha : a = run e objective (setup x tolerance M mem) k) (hb : b = run e objective (setup x tolerance M mem) (k + 1)) :
    (Spec.PositiveDefinite e.xl.length b.l ∧ ∃ (θ : K) (u : List K), 0 ≤ θ ∧ θ ≤ 1 ∧
      (∀ w : List K, dot u w = θ * (dot (objective (k + 1)).2 w - dot a.g w) + (1 - θ) * dot (mulL a.l (mulD a.l (mulLt a.l a.s))) w) ∧
      (1 / 5 * Spec.quad a.l a.s ≤ dot (objective (k + 1)).2 a.s - dot a.g a.s → θ = 1) ∧
      (dot (objective (k + 1)).2 a.s - dot a.g a.s < 1 / 5 * Spec.quad a.l a.s → dot u a.s = 1 / 5 * Spec.quad a.l a.s) ∧
      ∀ y : List K, y.length = e.xl.length → Spec.quad b.l y =
        Spec.quad a.l y + dot u y ^ 2 / dot u a.s - dot y (mulL a.l (mulD a.l (mulLt a.l a.s))) ^ 2 / Spec.quad a.l a.s) ∨
    (b.l = identity e.xl.length ∧ a.ireset < b.ireset) ∨
    (b.l = a.l ∧ (∀ i, a.s.getD i 0 = 0) ∧ ¬ Spec.Asks b) := by
  have hvg := run_gradient e he h h' M x tolerance mem objective hg k hk
  obtain ⟨inv, -⟩ := run_ok e he M x tolerance mem objective hg k fun j hj => hk j (by omega)
  rw [run] at hb
  rw [← ha] at hvg inv hm hb
  clear ha hk
  have hr := inv.ready
  obtain ⟨inv', -, -, -⟩ := prepare_ok e he M (objective (k + 1)).1 (objective (k + 1)).2 (hg (k + 1)) a inv
  have hp : ∃ p, p = prepare e (objective (k + 1)).1 (objective (k + 1)).2 a ∧ p.l = a.l ∧ p.s = a.s ∧ p.v = a.g ∧ p.g = (objective (k + 1)).2 ∧ p.ireset = a.ireset ∧ p.mode = -1 := by
    refine ⟨_, rfl, ?_⟩
    unfold prepare
    dsimp only
    rw [if_neg (by omega), if_neg (by omega), if_pos hm]
    exact ⟨rfl, rfl, hvg, rfl, rfl, hm⟩
  obtain ⟨p, hp, p1, p2, p3, p4, p5, p6⟩ := hp
  rw [← hp] at hb inv'
  clear hp
  have hc : call e p = gradient e p := by
    unfold call
    rw [if_pos (by omega)]
  rw [hc] at hb
  have ri := inv'.ready
  have hsl : p.s.length = p.l.length := by rw [inv'.slen (Or.inr p6), ri.llen]
  have hvl : p.v.length = p.l.length := by rw [inv'.vlen (Or.inr p6), ri.llen]
  have hgl : p.g.length = p.l.length := by rw [ri.glen, ri.llen]
  obtain ⟨d1, d2, d3, d4, d5⟩ := damped_spec p ri.shape ri.pos hsl hvl hgl
  obtain ⟨s1, s2, s3, s4, s5, s6, s7, s8, s9⟩ := damped_same p
  have hxl : (damped p).x.length = e.xl.length := by rw [s3]; exact ri.inside.1
  unfold gradient at hb
  dsimp only at hb
  split_ifs at hb with h0
  · have hz : Spec.quad p.l p.s = 0 := by
      have := quad_nonneg p.l p.s ri.pos
      rcases h0 with h0 | h0
      · rw [h0, d2] at d4; linarith
      · rw [← d2, h0]
    have r := (reset_kept e h h' (damped p) (s5.trans ri.inexact)).1
    rw [← hb, s1, s8, hxl, p1, p5] at r
    rcases r with r | r
    · refine Or.inr (Or.inr ⟨r.1, ?_, r.2⟩)
      rw [← p2]
      exact quad_zero p.l p.s ri.pos hsl hz
    · exact Or.inr (Or.inl r)
  · have it := (iteration_kept e h h' (5 - (damped p).ireset) { damped p with l := ldl e.eps (ldl e.eps (damped p).l (damped p).u (1 / (damped p).h1)) (damped p).v (-1 / (damped p).h2) }
      (s5.trans ri.inexact)).1
    rw [← hb] at it
    dsimp only at it
    rw [hxl, s8, p5] at it
    rcases it with it | it
    · left
      obtain ⟨u1, u2, -⟩ := bfgs_update e.eps he.eps p ri.shape ri.pos hsl hvl hgl h0 b.l (by rw [it, s1])
      obtain ⟨θ, t0, t1, t2, t3, t4⟩ := damped_mix p ri.shape ri.pos hsl hvl hgl
      rw [ri.llen] at u1 u2
      rw [p1, p2] at u2
      rw [p1, p2, p3, p4] at t2 t3 t4
      exact ⟨u1, θ, (damped p).u, t0, t1, t2, t3, t4, u2⟩
    · exact Or.inr (Or.inl it)

/-! ### What the routine remembers -/

theorem augmented_gradient (e : Env K) : ∀ (k : ℕ) (p : K) (s : State K), (augmented e k p s).g = s.g
  | 0, p, s => by
    rw [augmented]
    split_ifs <;> rfl
  | k + 1, p, s => by
    rw [augmented]
    split_ifs
    · exact augmented_gradient e k _ _
    · rfl

theorem direction_gradient (e : Env K) (s : State K) : (direction e s).1.g = s.g := by
  unfold direction
  dsimp only
  split_ifs
  · exact augmented_gradient e 5 100 _
  · rfl

theorem derivative_memory (b : Bool) (s : State K) : (derivative b s).g = s.g ∧ (derivative b s).x0 = s.x := by
  unfold derivative
  dsimp only
  split_ifs <;> exact ⟨rfl, rfl⟩

/-- a line search starts at the point and with the gradient of the iteration -/
def OutcomeMemory (s : State K) : Outcome K → Prop
  | .exit _ => True
  | .noDescent _ r => r.g = s.g
  | .search r => r.g = s.g ∧ r.x0 = s.x

theorem attempt_memory (e : Env K) (s : State K) : OutcomeMemory s (attempt e s) := by
  unfold attempt
  dsimp only
  have d := direction_kept e { s with iter := s.iter + 1, mode := 9 }
  have dg := direction_gradient e { s with iter := s.iter + 1, mode := 9 }
  obtain ⟨c, c0⟩ := derivative_memory (direction e { s with iter := s.iter + 1, mode := 9 }).2 (direction e { s with iter := s.iter + 1, mode := 9 }).1
  split_ifs with h1 h2 h3 h4
  · trivial
  · trivial
  · trivial
  · exact c.trans dg
  · exact ⟨c.trans dg, c0.trans d.1⟩

/-- the state of a line search that started at the point `x` with the gradient `g` -/
def Memory (x g : List K) (r : State K) : Prop := r.g = g ∧ r.x0 = x ∧ r.x = axpy 1 r.s r.x0

theorem iteration_memory (e : Env K) (h : ∀ l g u v, (e.lsq l g u v).2 ≠ -1) (h' : ∀ l p g u v, (e.lsqAug l p g u v).2.2 ≠ -1) : ∀ (k : ℕ) (s : State K), s.iexact = false →
    Spec.Asks (iteration e k s) → Memory s.x s.g (iteration e k s)
  | 0, s, hi => by
    have a := attempt_kept e h h' s
    have b := attempt_memory e s
    rw [iteration]
    cases hc : attempt e s with
    | exit r => rw [hc] at a; exact fun x => absurd x a.2
    | noDescent b r =>
      intro x
      rcases relaxed_mode e b { r with ireset := r.ireset + 1 } with m | m <;> rcases x with x | x <;> dsimp only at x <;> rw [m] at x <;> simp at x
    | search r =>
      rw [hc] at a b
      have hx : beginSearch e r = trial { r with line := 0, alpha := 1 } := by
        unfold beginSearch
        rw [if_neg (by rw [a.1.2.2.2, hi]; simp)]
      dsimp only
      rw [hx]
      exact fun _ => ⟨b.1, b.2, rfl⟩
  | k + 1, s, hi => by
    have a := attempt_kept e h h' s
    have b := attempt_memory e s
    rw [iteration]
    cases hc : attempt e s with
    | exit r => rw [hc] at a; exact fun x => absurd x a.2
    | noDescent c r =>
      rw [hc] at a b
      intro x
      have := iteration_memory e h h' k { r with ireset := r.ireset + 1, l := identity r.x.length } (by dsimp only; rw [a.2.2.2, hi]) x
      exact ⟨this.1.trans b, this.2.1.trans a.1, this.2.2⟩
    | search r =>
      rw [hc] at a b
      have hx : beginSearch e r = trial { r with line := 0, alpha := 1 } := by
        unfold beginSearch
        rw [if_neg (by rw [a.1.2.2.2, hi]; simp)]
      dsimp only
      rw [hx]
      exact fun _ => ⟨b.1, b.2, rfl⟩

theorem reset_memory (e : Env K) (h : ∀ l g u v, (e.lsq l g u v).2 ≠ -1) (h' : ∀ l p g u v, (e.lsqAug l p g u v).2.2 ≠ -1) (s : State K) (hi : s.iexact = false)
    (ha : Spec.Asks (reset e s)) : Memory s.x s.g (reset e s) := by
  unfold reset at ha ⊢
  dsimp only at ha ⊢
  split_ifs at ha ⊢ with h1
  · rcases relaxed_mode e false { s with ireset := s.ireset + 1 } with m | m <;> rcases ha with x | x <;> rw [m] at x <;> simp at x
  · exact iteration_memory e h h' (5 - (s.ireset + 1)) { s with ireset := s.ireset + 1, l := identity s.x.length } hi ha

/-- the bounds do not move points that lie inside -/
theorem bound_inside (lo hi x : List K) (hl : hi.length = lo.length) (hx : Spec.Inside lo hi x) : bound lo hi (fun i => x.getD i 0) = x := by
  refine List.ext_getElem (by rw [bound_length _ _ _ hl, hx.1]) fun i h1 h2 => ?_
  have hi' : i < lo.length := by rw [bound_length _ _ _ hl] at h1; exact h1
  have e1 := bound_getD lo hi (fun i => x.getD i 0) hl i hi'
  rw [List.getD_eq_getElem _ _ h1] at e1
  rw [e1, ← List.getD_eq_getElem _ 0 h2]
  obtain ⟨a, b⟩ := hx.2 i hi'
  unfold bound1
  rw [if_neg (not_lt.2 a), if_neg (not_lt.2 b)]

/-- The point at which the values number `i` are asked for: the start, moved into the bounds, then the points that the routine returns. -/
def Spec.point (e : Env K) (objective : ℕ → K × List K) (s : State K) : ℕ → List K
  | 0 => bound e.xl e.xu fun j => s.x.getD j 0
  | i + 1 => (run e objective s i).x

/-- C131: while the routine asks for evaluations, its step leads from a point where it was given a gradient to the point it asks for now, and the gradient it remembers is the one of that
point; all evaluations since then were asked for by the line search. -/
theorem slsqp_remembers [IsStrictOrderedRing K] (e : Env K) (he : Box e) (h : ∀ l g u v, (e.lsq l g u v).2 ≠ -1) (h' : ∀ l p g u v, (e.lsqAug l p g u v).2.2 ≠ -1)
    (M : ℕ) (x : List K) (tolerance : K) (mem : State K) (objective : ℕ → K × List K) (hg : ∀ k, (objective k).2.length = e.xl.length) :
    ∀ k, (∀ j ≤ k, Spec.Asks (run e objective (setup x tolerance M mem) j)) →
      ∃ i ≤ k, (∀ j, i ≤ j → j < k → (run e objective (setup x tolerance M mem) j).mode = 1) ∧ (run e objective (setup x tolerance M mem) k).g = (objective i).2 ∧
        (run e objective (setup x tolerance M mem) k).x = axpy 1 (run e objective (setup x tolerance M mem) k).s (Spec.point e objective (setup x tolerance M mem) i) := by
  have key : ∀ k, (∀ j ≤ k, Spec.Asks (run e objective (setup x tolerance M mem) j)) →
      ∃ i ≤ k, (∀ j, i ≤ j → j < k → (run e objective (setup x tolerance M mem) j).mode = 1) ∧
        Memory (Spec.point e objective (setup x tolerance M mem) i) (objective i).2 (run e objective (setup x tolerance M mem) k) := by
    intro k
    induction k with
    | zero =>
      intro ha
      refine ⟨0, le_rfl, fun j _ hj => absurd hj (by omega), ?_⟩
      have a0 := ha 0 le_rfl
      rw [run] at a0 ⊢
      have hc : call e (prepare e (objective 0).1 (objective 0).2 (setup x tolerance M mem)) = reset e (start (prepare e (objective 0).1 (objective 0).2 (setup x tolerance M mem))) := by
        unfold call
        rw [if_neg (by simp [prepare, setup]), if_pos (by simp [prepare, setup])]
      rw [hc] at a0 ⊢
      have hn : 0 ≤ tolerance * tolerance * (1 / 2) := mul_nonneg (mul_self_nonneg _) (by norm_num)
      exact reset_memory e h h' _ (by simpa [start, prepare, setup] using hn) a0
    | succ k ih =>
      intro ha
      obtain ⟨i, hi, hj, hmem⟩ := ih fun j hj => ha j (by omega)
      have hk := ha k (by omega)
      have hk1 := ha (k + 1) le_rfl
      obtain ⟨inv, -⟩ := run_ok e he M x tolerance mem objective hg k fun j hj => ha j (by omega)
      have hx : (prepare e (objective (k + 1)).1 (objective (k + 1)).2 (run e objective (setup x tolerance M mem) k)).x = (run e objective (setup x tolerance M mem) k).x := by
        have := bound_inside e.xl e.xu _ he.len inv.ready.inside
        unfold prepare
        dsimp only
        split_ifs <;> exact this
      rw [run] at hk1 ⊢
      obtain ⟨inv', hm, -, -⟩ := prepare_ok e he M (objective (k + 1)).1 (objective (k + 1)).2 (hg (k + 1)) _ inv
      have hi' := inv'.ready.inexact
      rcases hk with m | m
      · refine ⟨i, by omega, fun j h1 h2 => ?_, ?_⟩
        · rcases Nat.lt_succ_iff_lt_or_eq.1 h2 with h3 | h3
          · exact hj j h1 h3
          · rw [h3]; exact m
        · have hp : Memory (Spec.point e objective (setup x tolerance M mem) i) (objective i).2
              (prepare e (objective (k + 1)).1 (objective (k + 1)).2 (run e objective (setup x tolerance M mem) k)) := by
            refine ⟨?_, ?_, ?_⟩
            · unfold prepare
              dsimp only
              rw [if_neg (by omega), if_pos m]
              exact hmem.1
            · unfold prepare
              dsimp only
              rw [if_neg (by omega), if_pos m]
              exact hmem.2.1
            · rw [hx, hmem.2.2]
              unfold prepare
              dsimp only
              rw [if_neg (by omega), if_pos m]
          generalize prepare e (objective (k + 1)).1 (objective (k + 1)).2 (run e objective (setup x tolerance M mem) k) = p at *
          unfold call
          rw [if_neg (by omega), if_neg (by omega)]
          dsimp only
          rw [if_neg (by rw [hi']; simp)]
          unfold lineTest
          split_ifs
          · exact hp
          · exact ⟨hp.1, hp.2.1, rfl⟩
      · refine ⟨k + 1, le_rfl, fun j h1 h2 => absurd h2 (by omega), ?_⟩
        have hgr : (prepare e (objective (k + 1)).1 (objective (k + 1)).2 (run e objective (setup x tolerance M mem) k)).g = (objective (k + 1)).2 := by
          unfold prepare
          dsimp only
          rw [if_neg (by omega), if_neg (by omega), if_pos m]
        change Memory (run e objective (setup x tolerance M mem) k).x _ _
        generalize prepare e (objective (k + 1)).1 (objective (k + 1)).2 (run e objective (setup x tolerance M mem) k) = p at *
        rw [← hx, ← hgr]
        have hc : call e p = gradient e p := by
          unfold call
          rw [if_pos (by omega)]
        rw [hc] at hk1 ⊢
        obtain ⟨s1, s2, s3, s4, s5, -⟩ := damped_same p
        unfold gradient at hk1 ⊢
        dsimp only at hk1 ⊢
        split_ifs at hk1 ⊢ with h0
        · have := reset_memory e h h' _ (s5.trans hi') hk1
          rwa [s3, s4] at this
        · have := iteration_memory e h h' _ _ (by dsimp only; exact s5.trans hi') hk1
          exact ⟨this.1.trans s4, this.2.1.trans s3, this.2.2⟩
  intro k ha
  obtain ⟨i, hi, hj, h1, h2, h3⟩ := key k ha
  exact ⟨i, hi, hj, h1, h2 ▸ h3⟩

/-! ### A case that meets the hypotheses -/

/-- the second call of the search of `parabola` gets a new gradient; the curvature `4` of the objective is found -/
example : (∀ l g u v, (line1.lsq l g u v).2 ≠ -1) ∧ (∀ l p g u v, (line1.lsqAug l p g u v).2.2 ≠ -1) ∧
    (∀ j ≤ 1, Spec.Asks (run line1 parabola (setup [1] (1 / 1000) 10 mem1) j)) ∧ (run line1 parabola (setup [1] (1 / 1000) 10 mem1) 1).mode = -1 ∧
    (run line1 parabola (setup [1] (1 / 1000) 10 mem1) 1).l = [(1, [])] ∧ (run line1 parabola (setup [1] (1 / 1000) 10 mem1) 2).l = [(4, [])] := by
  refine ⟨fun _ _ _ _ => by simp [line1], fun _ _ _ _ _ => by simp [line1], ?_, by decide +kernel, by decide +kernel, by decide +kernel⟩
  intro j hj
  unfold Spec.Asks
  rcases j with _ | _ | j
  · left; decide +kernel
  · right; decide +kernel
  · omega

end Splinepy.Slsqp
