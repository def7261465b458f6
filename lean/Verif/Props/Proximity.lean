import Verif.Model.Proximity
import Verif.Props.Grid
import Mathlib.Algebra.BigOperators.Fin
import Mathlib.Data.Rat.Sqrt
import Mathlib.Order.Fin.Basic
import Mathlib.Tactic.Linarith
import Mathlib.Tactic.Ring
import Mathlib.Tactic.NormNum

/-!
Point inversion (`spline.proximities`): C29, C30, C31.
-/
set_option linter.unusedSectionVars false
namespace Splinepy.Proximity

variable {K : Type} [Field K] [LinearOrder K] [IsStrictOrderedRing K] {pd d : ℕ}

/-! ### Specification -/

/-- `u` lies in the box spanned by `lo` and `hi`. -/
def Spec.InBox (lo hi u : Fin pd → K) : Prop := ∀ i, lo i ≤ u i ∧ u i ≤ hi i

/-- The reported quantities are those of the point with parametric coordinate `u`: physical coordinate, difference to the
query, its norm, first derivatives, and the norm of the gradient of the halved squared distance. -/
structure Spec.Belongs (e : Env K pd d) (query : Fin d → K) (u : Fin pd → K) (r : Data K pd d) : Prop where
  nearest : r.phys = e.eval u
  difference : ∀ k, r.diff k = e.eval u k - query k
  distance : r.distance = e.sqrt (∑ k, (e.eval u k - query k) ^ 2)
  first : ∀ i, r.grad i = e.deriv u (fun k => if k = i then 1 else 0)
  residual : r.convNorm =
    e.sqrt (∑ i, (∑ k, e.deriv u (fun k => if k = i then 1 else 0) k * (e.eval u k - query k)) ^ 2)

/-- The reported second derivatives are those at `u`; `D i j` counts the derivatives taken in each direction. -/
def Spec.HessianAt (e : Env K pd d) (u : Fin pd → K) (r : Data K pd d) : Prop :=
  ∀ i j, r.hess i j = e.deriv u (fun k => (if k = i then 1 else 0) + (if k = j then 1 else 0))

/-- The calls of `slsqp` end with one that does not ask for a further evaluation, within `n` calls. -/
def Spec.SlsqpStops (e : Env K pd d) (n : ℕ) : Prop :=
  ∃ m < n, (e.slsqp m).2 ≠ 1 ∧ (e.slsqp m).2 ≠ -1

/-! ### Vectors -/

theorem vsum_eq {n : ℕ} (f : Fin n → K) : vsum f = ∑ i, f i := by
  unfold vsum
  rw [← List.ofFn_eq_map, List.sum_ofFn]

theorem normSq_eq {n : ℕ} (f : Fin n → K) : normSq f = ∑ i, f i ^ 2 := by
  unfold normSq
  rw [vsum_eq]
  exact Finset.sum_congr rfl fun i _ => by ring

theorem normSq_neg {n : ℕ} (f : Fin n → K) : normSq (fun i => - f i) = normSq f := by
  rw [normSq_eq, normSq_eq]
  exact Finset.sum_congr rfl fun i _ => by ring

theorem clip1_mem (lb ub x : K) (h : lb ≤ ub) : lb ≤ clip1 lb ub x ∧ clip1 lb ub x ≤ ub := by
  unfold clip1
  split_ifs with h1 h2
  · exact ⟨h, le_refl _⟩
  · exact ⟨le_refl _, h⟩
  · exact ⟨not_lt.1 h2, not_lt.1 h1⟩

/-! ### Invariant of all searches -/

/-- Query and box stay fixed and the guess lies in the box. -/
structure Inv (q : Fin d → K) (lo hi : Fin pd → K) (x : Data K pd d) : Prop where
  query : x.query = q
  lower : x.lower = lo
  upper : x.upper = hi
  mem : Spec.InBox lo hi x.guess

/-- Distance, residual and half squared distance are up to date. -/
structure Fresh (e : Env K pd d) (x : Data K pd d) : Prop where
  belongs : Spec.Belongs e x.query x.guess x
  J : x.costJ = 1 / 2 * normSq fun k => e.eval x.guess k - x.query k

/-- Upper triangle of the second derivatives is up to date. -/
def Upper (e : Env K pd d) (x : Data K pd d) : Prop :=
  ∀ i j, i ≤ j → x.hess i j = e.deriv x.guess (unit2 i j)

variable {q : Fin d → K} {lo hi : Fin pd → K}

theorem inv_clip (x : Data K pd d) (hq : x.query = q) (hl : x.lower = lo) (hu : x.upper = hi)
    (hle : ∀ i, lo i ≤ hi i) : Inv q lo hi (clip x) := by
  refine ⟨hq, hl, hu, fun i => ?_⟩
  have := clip1_mem (x.lower i) (x.upper i) (x.guess i) (by rw [hl, hu]; exact hle i)
  rw [hl, hu] at this
  simpa only [clip, hl, hu] using this

theorem inv_computeCost {e : Env K pd d} {x : Data K pd d} (n : ℕ) (h : Inv q lo hi x) :
    Inv q lo hi (computeCost e n x) := by
  obtain ⟨a, b, c, m⟩ := h
  unfold computeCost
  dsimp only
  split_ifs <;> exact ⟨a, b, c, m⟩

theorem inv_computeStatus {e : Env K pd d} {x : Data K pd d} (r : Bool) (h : Inv q lo hi x) :
    Inv q lo hi (computeStatus e r x) := by
  unfold computeStatus
  have h' : Inv q lo hi (if r then computeCost e 1 x else x) := by
    split_ifs
    · exact inv_computeCost 1 h
    · exact h
  obtain ⟨a, b, c, m⟩ := h'
  exact ⟨a, b, c, m⟩

theorem inv_prepareNewton {e : Env K pd d} {x : Data K pd d} (h : Inv q lo hi x) : Inv q lo hi (prepareNewton e x) := by
  unfold prepareNewton
  apply inv_computeStatus
  obtain ⟨a, b, c, m⟩ := inv_computeCost (e := e) 2 h
  exact ⟨a, b, c, m⟩

theorem inv_prepareLM {e : Env K pd d} {x : Data K pd d} (h : Inv q lo hi x) : Inv q lo hi (prepareLM e x) := by
  unfold prepareLM
  apply inv_computeStatus
  obtain ⟨a, b, c, m⟩ := inv_computeCost (e := e) 1 h
  exact ⟨a, b, c, m⟩

theorem inv_setGoal {x : Data K pd d} (h : Inv q lo hi x) : Inv q lo hi (setGoal x) := by
  obtain ⟨a, b, c, m⟩ := h
  exact ⟨a, b, c, m⟩

theorem belongs_status (e : Env K pd d) (x : Data K pd d) (hp : x.phys = e.eval x.guess)
    (hd : ∀ k, x.diff k = e.eval x.guess k - x.query k) (hg : ∀ i, x.grad i = e.deriv x.guess (unit1 i))
    (hj : normSq x.djdu = normSq fun i => vsum fun k => x.grad i k * x.diff k) : Fresh e (fillStatus e x) := by
  have hdd : x.diff = fun k => e.eval x.guess k - x.query k := funext hd
  refine ⟨⟨hp, hd, ?_, hg, ?_⟩, ?_⟩
  · change e.sqrt (normSq x.diff) = _
    rw [normSq_eq]
    simp only [hd]
    rfl
  · change e.sqrt (normSq x.djdu) = _
    rw [hj, normSq_eq]
    congr 1
    refine Finset.sum_congr rfl fun i _ => ?_
    rw [vsum_eq]
    simp only [hd, hg]
    rfl
  · change 1 / 2 * normSq x.diff = _
    rw [hdd]; rfl

theorem fresh_recompute (e : Env K pd d) (x : Data K pd d) : Fresh e (computeStatus e true x) := by
  unfold computeStatus
  rw [if_pos rfl]
  exact belongs_status e _ rfl (fun _ => rfl) (fun _ => rfl) rfl

theorem fresh_newton (e : Env K pd d) (x : Data K pd d) : Fresh e (prepareNewton e x) := by
  unfold prepareNewton computeStatus
  rw [if_neg (by simp)]
  exact belongs_status e _ rfl (fun _ => rfl) (fun _ => rfl) (normSq_neg _)

theorem upper_newton (e : Env K pd d) (x : Data K pd d) : Upper e (prepareNewton e x) := by
  intro i j hij
  change (if i ≤ j then e.deriv x.guess (unit2 i j) else x.hess i j) = _
  rw [if_pos hij]
  rfl

theorem fresh_LM (e : Env K pd d) (x : Data K pd d) : Fresh e (prepareLM e x) := by
  unfold prepareLM computeStatus
  dsimp only
  rw [if_neg (by simp)]
  exact belongs_status e _ rfl (fun _ => rfl) (fun _ => rfl) (normSq_neg _)

theorem fresh_setGoal {e : Env K pd d} {x : Data K pd d} (h : Fresh e x) : Fresh e (setGoal x) := by
  obtain ⟨⟨a, b, c, f, g⟩, j⟩ := h
  exact ⟨⟨a, b, c, f, g⟩, j⟩

theorem newtonLoop_spec {e : Env K pd d} (hle : ∀ i, lo i ≤ hi i) (fuel i : ℕ) (x y : Data K pd d)
    (hI : Inv q lo hi x) (hF : Fresh e x) (hU : Upper e x) (h : newtonLoop e fuel i x = some y) :
    Inv q lo hi y ∧ Fresh e y ∧ Upper e y ∧ y.maxIter = x.maxIter := by
  induction fuel generalizing i x with
  | zero => simp [newtonLoop] at h
  | succ n ih =>
    rw [newtonLoop] at h
    split_ifs at h with h1 h2
    · cases h; exact ⟨hI, hF, hU, rfl⟩
    · have := ih _ _ (inv_prepareNewton (e := e) (inv_clip _ (by exact hI.query) (by exact hI.lower)
        (by exact hI.upper) hle)) (fresh_newton _ _) (upper_newton _ _) h
      exact this
    · cases h; exact ⟨hI, hF, hU, rfl⟩

theorem newton_spec {e : Env K pd d} (hle : ∀ i, lo i ≤ hi i) (fuel : ℕ) (x y : Data K pd d) (hI : Inv q lo hi x)
    (h : newton e fuel x = some y) : Inv q lo hi y ∧ Fresh e y ∧ Upper e y ∧ y.maxIter = x.maxIter :=
  newtonLoop_spec hle fuel 0 (setGoal (prepareNewton e x)) y (inv_setGoal (inv_prepareNewton hI)) (fresh_setGoal (fresh_newton e x))
    (upper_newton e x) h

theorem slsqpLoop_inv {e : Env K pd d} (hle : ∀ i, lo i ≤ hi i) (fuel n : ℕ) (x y : Data K pd d)
    (hI : Inv q lo hi x) (h : slsqpLoop e fuel n x = some y) : Inv q lo hi y ∧ y.maxIter = x.maxIter := by
  induction fuel generalizing n x with
  | zero => simp [slsqpLoop] at h
  | succ f ih =>
    rw [slsqpLoop] at h
    have hc : ∀ z : Data K pd d, z.query = q → z.lower = lo → z.upper = hi →
        Inv q lo hi (prepareSlsqp e z) ∧ (prepareSlsqp e z).maxIter = z.maxIter := by
      intro z h1 h2 h3
      have hz := inv_clip z h1 h2 h3 hle
      unfold prepareSlsqp
      dsimp only
      split_ifs
      · exact ⟨inv_computeStatus _ (inv_computeCost _ hz), rfl⟩
      · exact ⟨inv_computeCost _ hz, rfl⟩
      · exact ⟨inv_computeCost _ hz, rfl⟩
      · exact ⟨hz, rfl⟩
    obtain ⟨hp, hm⟩ := hc { x with guess := (e.slsqp n).1, mode := (e.slsqp n).2 } hI.query hI.lower hI.upper
    split_ifs at h
    · obtain ⟨a, b⟩ := ih _ _ hp h
      exact ⟨a, b.trans hm⟩
    · cases h; exact ⟨hp, hm⟩

theorem slsqp_spec {e : Env K pd d} (hle : ∀ i, lo i ≤ hi i) (fuel : ℕ) (x y : Data K pd d) (hI : Inv q lo hi x)
    (h : slsqpSearch e fuel x = some y) : Inv q lo hi y ∧ Fresh e y ∧ y.maxIter = x.maxIter := by
  unfold slsqpSearch at h
  obtain ⟨z, hz, rfl⟩ := Option.map_eq_some_iff.1 h
  have h0 : Inv q lo hi (setGoal (computeStatus e false (prepareSlsqp e { x with mode := 0 }))) := by
    have hz := inv_clip { x with mode := 0 } hI.query hI.lower hI.upper hle
    apply inv_setGoal
    apply inv_computeStatus
    unfold prepareSlsqp
    dsimp only
    rw [if_pos (by rfl)]
    exact inv_computeStatus _ (inv_computeCost _ hz)
  obtain ⟨a, b⟩ := slsqpLoop_inv hle _ _ _ _ h0 hz
  refine ⟨inv_computeStatus _ a, fresh_recompute _ _, ?_⟩
  exact b.trans rfl

theorem lmBody_spec {e : Env K pd d} (hle : ∀ i, lo i ≤ hi i) (x : Data K pd d) (hI : Inv q lo hi x) :
    match lmBody e x with
    | .stop y => Inv q lo hi y ∧ Fresh e y ∧ y.maxIter = x.maxIter
    | .reject y => Inv q lo hi y ∧ Fresh e y ∧ y.maxIter = x.maxIter ∧ y.lambda = x.lambda * 2 ∧ y.lambda ≤ 100000
    | .accept y => Inv q lo hi y ∧ Fresh e y ∧ y.maxIter = x.maxIter ∧
        (y.lambda = x.lambda ∨ y.lambda = x.lambda * (1 / 2)) := by
  have hz : Inv q lo hi
      (updateAndClip { x with delta := e.solve x.aat x.djdu, prevGuess := x.guess }) :=
    inv_clip _ (by exact hI.query) (by exact hI.lower) (by exact hI.upper) hle
  unfold lmBody
  dsimp only
  split
  · rename_i y hy
    split_ifs at hy
    cases hy
    refine ⟨inv_computeStatus _ ?_, fresh_recompute _ _, rfl⟩
    obtain ⟨a, b, c, m⟩ := inv_computeCost (e := e) 0 hz
    exact ⟨a, b, c, m⟩
  · rename_i y hy
    split_ifs at hy with h1 h2
    cases hy
    refine ⟨inv_prepareLM ?_, fresh_LM _ _, rfl, rfl, not_lt.1 h2⟩
    obtain ⟨a, b, c, m⟩ := inv_computeCost (e := e) 0 hz
    exact ⟨a, b, c, hI.mem⟩
  · rename_i y hy
    split_ifs at hy with h1 h2 h3 <;> cases hy
    · refine ⟨inv_prepareLM ?_, fresh_LM _ _, rfl, Or.inr rfl⟩
      obtain ⟨a, b, c, m⟩ := inv_computeCost (e := e) 0 hz
      exact ⟨a, b, c, m⟩
    · refine ⟨inv_prepareLM ?_, fresh_LM _ _, rfl, Or.inl rfl⟩
      obtain ⟨a, b, c, m⟩ := inv_computeCost (e := e) 0 hz
      exact ⟨a, b, c, m⟩

theorem lmLoop_spec {e : Env K pd d} (hle : ∀ i, lo i ≤ hi i) (fuel i : ℕ) (x y : Data K pd d)
    (hI : Inv q lo hi x) (hF : Fresh e x) (h : lmLoop e fuel i x = some y) : Inv q lo hi y ∧ Fresh e y := by
  induction fuel generalizing i x with
  | zero => simp [lmLoop] at h
  | succ n ih =>
    rw [lmLoop] at h
    have hb := lmBody_spec (e := e) hle x hI
    split_ifs at h with h1 h2
    · cases h; exact ⟨hI, hF⟩
    · rcases hs : lmBody e x with z | z | z
      · rw [hs] at h hb
        cases h; exact ⟨hb.1, hb.2.1⟩
      · rw [hs] at h hb
        exact ih _ _ hb.1 hb.2.1 h
      · rw [hs] at h hb
        exact ih _ _ hb.1 hb.2.1 h
    · cases h; exact ⟨hI, hF⟩

theorem lm_spec {e : Env K pd d} (hle : ∀ i, lo i ≤ hi i) (fuel : ℕ) (x y : Data K pd d) (hI : Inv q lo hi x)
    (h : levenbergMarquart e fuel x = some y) : Inv q lo hi y ∧ Fresh e y := by
  unfold levenbergMarquart at h
  refine lmLoop_spec hle fuel 0 _ y ?_ ?_ h
  · unfold lmStart
    apply inv_setGoal
    obtain ⟨a, b, c, m⟩ := inv_prepareLM (e := e) (x := { x with lambda := 1 }) ⟨hI.query, hI.lower, hI.upper, hI.mem⟩
    exact ⟨a, b, c, m⟩
  · unfold lmStart
    apply fresh_setGoal
    obtain ⟨⟨a, b, c, f, g⟩, j⟩ := fresh_LM e { x with lambda := 1 }
    exact ⟨⟨a, b, c, f, g⟩, j⟩

theorem inv_keepBest {b : Best K pd} {x : Data K pd d} (hI : Inv q lo hi x) (hb : Spec.InBox lo hi b.guess) :
    Inv q lo hi (keepBest b x).2.1 ∧ Spec.InBox lo hi (keepBest b x).1.guess ∧
      (keepBest b x).2.1.maxIter = x.maxIter := by
  unfold keepBest
  split_ifs
  · exact ⟨hI, hI.mem, rfl⟩
  · exact ⟨⟨hI.query, hI.lower, hI.upper, hb⟩, hb, rfl⟩

/-- Everything that holds of a result. -/
structure Result (e : Env K pd d) (q : Fin d → K) (lo hi : Fin pd → K) (ex : Exit) (r : Data K pd d) : Prop where
  mem : Spec.InBox lo hi r.guess
  other : ∃ u, Spec.InBox lo hi u ∧ Spec.Belongs e q u r ∧ (ex ≠ .notImproved → u = r.guess)
  hessian : (∀ i j u, e.deriv u (unit2 i j) = e.deriv u (unit2 j i)) → Spec.HessianAt e r.guess r

theorem hess_fill (e : Env K pd d) (x : Data K pd d) (hs : ∀ i j u, e.deriv u (unit2 i j) = e.deriv u (unit2 j i)) :
    Spec.HessianAt e (fillHessian e x).guess (fillHessian e x) := by
  intro i j
  change (if i ≤ j then e.deriv x.guess (unit2 i j) else e.deriv x.guess (unit2 j i)) = e.deriv x.guess (unit2 i j)
  split_ifs
  · rfl
  · rw [hs]

theorem search_spec {e : Env K pd d} (fuel : ℕ) (step : Fin pd → K) (tight : Bool) (x : Data K pd d)
    (hg : Spec.InBox e.lo e.hi x.guess) (hstep : ∀ i, 0 ≤ step i) (ex : Exit) (r : Data K pd d)
    (h : search e fuel step tight x = some (ex, r)) :
    Result e x.query (fun i => if tight then max (e.lo i) (x.guess i - step i) else e.lo i)
      (fun i => if tight then min (e.hi i) (x.guess i + step i) else e.hi i) ex r := by
  generalize hlo : (fun i => if tight then max (e.lo i) (x.guess i - step i) else e.lo i) = lo
  generalize hhi : (fun i => if tight then min (e.hi i) (x.guess i + step i) else e.hi i) = hi
  have hmem : Spec.InBox lo hi x.guess := by
    intro i
    have := hg i
    have := hstep i
    rw [← hlo, ← hhi]
    dsimp only
    split_ifs
    · exact ⟨max_le (hg i).1 (by linarith), le_min (hg i).2 (by linarith)⟩
    · exact hg i
  have hle : ∀ i, lo i ≤ hi i := fun i => (hmem i).1.trans (hmem i).2
  have hI0 : Inv x.query lo hi (findSearchBound e step tight (computeCost e 0 x)) := by
    unfold findSearchBound
    cases tight
    · refine ⟨rfl, ?_, ?_, hmem⟩
      · rw [← hlo]; rfl
      · rw [← hhi]; rfl
    · refine ⟨rfl, ?_, ?_, hmem⟩
      · rw [← hlo]; rfl
      · rw [← hhi]; rfl
  unfold search at h
  dsimp only at h
  generalize hb0 : (⟨(computeCost e 0 x).costJ, (computeCost e 0 x).guess⟩ : Best K pd) = b0 at h
  have hb0m : Spec.InBox lo hi b0.guess := by rw [← hb0]; exact hmem
  cases hN : newton e fuel (findSearchBound e step tight (computeCost e 0 x)) with
  | none => rw [hN] at h; simp at h
  | some x1 =>
    rw [hN] at h
    dsimp only at h
    obtain ⟨hI1, hF1, hU1, -⟩ := newton_spec hle fuel _ _ hI0 hN
    split_ifs at h with hc1
    · cases h
      refine ⟨hI1.mem, ⟨x1.guess, hI1.mem, ?_, fun _ => rfl⟩, fun hs i j => ?_⟩
      · have := hF1.belongs
        rw [hI1.query] at this
        obtain ⟨a, b, c, f, g⟩ := this
        exact ⟨a, b, c, f, g⟩
      · change (if i ≤ j then x1.hess i j else x1.hess j i) = e.deriv x1.guess (unit2 i j)
        split_ifs with hij
        · exact hU1 i j hij
        · rw [hU1 j i (by omega), hs]
    · obtain ⟨hI2, hb2, -⟩ := inv_keepBest (b := b0) hI1 hb0m
      generalize keepBest b0 x1 = kb at h hI2 hb2
      obtain ⟨b2, x2, im2⟩ := kb
      dsimp only at h hI2 hb2
      cases hS : slsqpSearch e fuel { x2 with maxIter := x2.maxIter * 5 } with
      | none => rw [hS] at h; simp at h
      | some x3 =>
        rw [hS] at h
        dsimp only at h
        obtain ⟨hI3, hF3, -⟩ := slsqp_spec (q := x.query) (lo := lo) (hi := hi) hle fuel
          { x2 with maxIter := x2.maxIter * 5 } _ ⟨hI2.query, hI2.lower, hI2.upper, hI2.mem⟩ hS
        split_ifs at h with hc3
        · cases h
          refine ⟨hI3.mem, ⟨x3.guess, hI3.mem, ?_, fun _ => rfl⟩, fun hs => hess_fill e x3 hs⟩
          have := hF3.belongs
          rw [hI3.query] at this
          obtain ⟨a, b, c, f, g⟩ := this
          exact ⟨a, b, c, f, g⟩
        · obtain ⟨hI4, hb4, -⟩ := inv_keepBest (b := b2) hI3 hb2
          generalize keepBest b2 x3 = kb at h hI4 hb4
          obtain ⟨b4, x4, im4⟩ := kb
          dsimp only at h hI4 hb4
          cases hL : levenbergMarquart e fuel { x4 with maxIter := x4.maxIter * 5 } with
          | none => rw [hL] at h; simp at h
          | some x5 =>
            rw [hL] at h
            dsimp only at h
            obtain ⟨hI5, hF5⟩ := lm_spec (q := x.query) (lo := lo) (hi := hi) hle fuel
              { x4 with maxIter := x4.maxIter * 5 } _ ⟨hI4.query, hI4.lower, hI4.upper, hI4.mem⟩ hL
            obtain ⟨hI6, hb6, -⟩ := inv_keepBest (b := b4) hI5 hb4
            have hB5 : Spec.Belongs e x.query x5.guess (keepBest b4 x5).2.1 := by
              have := hF5.belongs
              rw [hI5.query] at this
              obtain ⟨a, b, c, f, g⟩ := this
              unfold keepBest
              split_ifs
              · exact ⟨a, b, c, f, g⟩
              · exact ⟨a, b, c, f, g⟩
            generalize keepBest b4 x5 = kb at h hI6 hb6 hB5
            obtain ⟨b6, x6, im6⟩ := kb
            dsimp only at h hI6 hb6 hB5
            split_ifs at h with hc5
            · cases h
              refine ⟨hI6.mem, ⟨x6.guess, hI6.mem, ?_, fun _ => rfl⟩, fun hs => hess_fill e _ hs⟩
              have := (fresh_recompute e x6).belongs
              have hq : (computeStatus e true x6).query = x.query := hI6.query
              rw [hq] at this
              obtain ⟨a, b, c, f, g⟩ := this
              exact ⟨a, b, c, f, g⟩
            · cases h
              refine ⟨hI6.mem, ⟨x5.guess, hI5.mem, ?_, fun hne => absurd rfl hne⟩, fun hs => hess_fill e x6 hs⟩
              obtain ⟨a, b, c, f, g⟩ := hB5
              exact ⟨a, b, c, f, g⟩

/-! ### The initial guess -/

/-- Bounds as handed to the sampling grid. -/
def boundsOf (e : Env K pd d) (n : ℕ) : K :=
  if h : n < pd then e.lo ⟨n, h⟩ else if h : n - pd < pd then e.hi ⟨n - pd, h⟩ else 0

theorem plant_spec (e : Env K pd d) (res : ℕ → ℤ) (g : Grid.GridPoints K) (hg : plant e res = some g)
    (hb : ∀ i, e.lo i < e.hi i) (id : ℕ) (p : List K) (hp : Grid.idToGridPoint g id = some p) :
    Spec.InBox e.lo e.hi (fun i : Fin pd => p.getD i 0) ∧ ∀ i : Fin pd, 0 ≤ g.stepSize.getD i 0 := by
  have hres : ∀ i < pd, 2 ≤ res i := by
    by_contra hc
    push Not at hc
    have := (Grid.setUp_rejects_iff pd (boundsOf e) res).2 hc
    have h2 : plant e res = none := this
    rw [h2] at hg
    simp at hg
  obtain ⟨gp, h1, h2, h3⟩ := Grid.sample_point_correct pd (boundsOf e) res hres
  have hgp : gp = g := by
    have : plant e res = some gp := h1
    rw [this] at hg
    exact Option.some.inj hg
  subst hgp
  rw [h3] at hp
  have hlo : ∀ i : Fin pd, boundsOf e i = e.lo i := fun i => by simp [boundsOf]
  have hhi : ∀ i : Fin pd, boundsOf e (i + pd) = e.hi i := fun i => by simp [boundsOf]
  constructor
  · intro i
    rw [← Option.some.inj hp]
    have hi := i.isLt
    dsimp only
    rw [List.getD_eq_getElem _ _ (by simp)]
    simp only [List.getElem_map, List.getElem_range]
    have := (Grid.coord_mem_strictMono pd (boundsOf e) res i (hres i hi) (by rw [hlo, hhi]; exact hb i)).1
      (Grid.Spec.index res i id) (by
        unfold Grid.Spec.index
        have := hres i hi
        exact Nat.mod_lt _ (by omega))
    rw [hlo, hhi] at this
    exact this
  · intro i
    have hi := i.isLt
    have := Grid.setUp_eq pd (boundsOf e) res hres
    rw [h1] at this
    have := Option.some.inj this
    rw [this]
    dsimp only
    rw [List.getD_eq_getElem _ _ (by simp)]
    simp only [List.getElem_map, List.getElem_range]
    rw [hlo, hhi]
    exact div_nonneg (by linarith [hb i]) (Nat.cast_nonneg _)

/-- C29: for every spline with non-degenerate parametric bounds, every query, option and number of iterations, and for every
behaviour of the solvers, of `slsqp` and of the k-d tree: the returned parametric coordinate lies in the parametric bounds,
and with `tight_search_bounds` also within one sampling step of the initial guess. -/
theorem proximity_in_bounds (e : Env K pd d) (hb : ∀ i, e.lo i < e.hi i) (res : ℕ → ℤ) (g : Grid.GridPoints K)
    (hg : plant e res = some g) (fuel nearest : ℕ) (tight : Bool) (query : Fin d → K) (tol : K) (maxIter : ℤ)
    (mem : Data K pd d) (ex : Exit) (r : Data K pd d)
    (h : verboseQuery e fuel (some g) nearest tight query tol maxIter mem = some (ex, r)) :
    Spec.InBox e.lo e.hi r.guess ∧
    (tight = true → ∃ p, Grid.idToGridPoint g nearest = some p ∧
      ∀ i : Fin pd, |r.guess i - p.getD i 0| ≤ g.stepSize.getD i 0) := by
  unfold verboseQuery at h
  dsimp only at h
  cases hp : Grid.idToGridPoint g nearest with
  | none => rw [hp] at h; simp at h
  | some p =>
    rw [hp] at h
    obtain ⟨h1, h2⟩ := plant_spec e res g hg hb nearest p hp
    obtain ⟨hm, -, -⟩ := search_spec fuel _ tight _ (by exact h1) h2 ex r h
    constructor
    · intro i
      have := hm i
      dsimp only at this
      split_ifs at this
      · exact ⟨(le_max_left _ _).trans this.1, this.2.trans (min_le_left _ _)⟩
      · exact this
    · intro ht
      subst ht
      refine ⟨p, rfl, fun i => ?_⟩
      have := hm i
      simp only [if_true] at this
      have ha := (le_max_right _ _).trans this.1
      have hc := this.2.trans (min_le_right _ _)
      rw [abs_le]
      constructor <;> linarith

/-- C31 (partial): nearest point, difference, distance, first derivatives and residual always belong to one coordinate inside
the bounds, and this is the returned coordinate unless the last fallback (Levenberg-Marquardt) ended without improvement.
The second derivatives always belong to the returned coordinate. Missing: the case without improvement, where the claim is
false (`inconsistent_result_violates`), and the comparison with the initial guess (`worse_than_initial_violates`). -/
theorem proximity_consistent_partial (e : Env K pd d) (hb : ∀ i, e.lo i < e.hi i) (res : ℕ → ℤ) (g : Grid.GridPoints K)
    (hg : plant e res = some g) (fuel nearest : ℕ) (tight : Bool) (query : Fin d → K) (tol : K) (maxIter : ℤ)
    (mem : Data K pd d) (ex : Exit) (r : Data K pd d)
    (h : verboseQuery e fuel (some g) nearest tight query tol maxIter mem = some (ex, r)) :
    (∃ u, Spec.InBox e.lo e.hi u ∧ Spec.Belongs e query u r ∧ (ex ≠ .notImproved → u = r.guess)) ∧
    ((∀ i j u, e.deriv u (unit2 i j) = e.deriv u (unit2 j i)) → Spec.HessianAt e r.guess r) := by
  unfold verboseQuery at h
  dsimp only at h
  cases hp : Grid.idToGridPoint g nearest with
  | none => rw [hp] at h; simp at h
  | some p =>
    rw [hp] at h
    obtain ⟨h1, h2⟩ := plant_spec e res g hg hb nearest p hp
    obtain ⟨-, ⟨u, hu, hB, hne⟩, hH⟩ := search_spec fuel _ tight _ (by exact h1) h2 ex r h
    refine ⟨⟨u, fun i => ?_, hB, hne⟩, hH⟩
    have := hu i
    dsimp only at this
    split_ifs at this
    · exact ⟨(le_max_left _ _).trans this.1, this.2.trans (min_le_left _ _)⟩
    · exact this

/-- C31: if the nearest sample is closer to the query than the tolerance, it is returned as it is, with its own point, difference and distance, whatever the
solvers do. -/
theorem proximity_sample_hit (e : Env K pd d) (g : Grid.GridPoints K) (fuel nearest : ℕ) (hf : 0 < fuel) (tight : Bool) (query : Fin d → K) (tol : K) (maxIter : ℤ)
    (mem : Data K pd d) (p : List K) (hp : Grid.idToGridPoint g nearest = some p)
    (hd : e.sqrt (∑ k, (e.eval (fun i => p.getD i 0) k - query k) ^ 2) < tol) :
    ∃ r, verboseQuery e fuel (some g) nearest tight query tol maxIter mem = some (.newton, r) ∧
      (r.guess = fun i : Fin pd => p.getD i 0) ∧ r.phys = e.eval r.guess ∧ (r.diff = fun k => e.eval r.guess k - query k) ∧
      r.distance = e.sqrt (∑ k, (e.eval r.guess k - query k) ^ 2) := by
  obtain ⟨n, rfl⟩ : ∃ n, fuel = n + 1 := ⟨fuel - 1, by omega⟩
  unfold verboseQuery
  dsimp only
  rw [hp]
  dsimp only
  generalize hx : ({ setup query tol maxIter mem with guess := fun i => p.getD i 0 } : Data K pd d) = x
  have hxg : x.guess = fun i : Fin pd => p.getD i 0 := by rw [← hx]
  have hxq : x.query = query := by rw [← hx]; rfl
  have hxt : x.tolerance = tol := by rw [← hx]; rfl
  clear hx
  unfold search
  dsimp only
  have h0 : ∀ f : Fin pd → K, (findSearchBound e f tight (computeCost e 0 x)).guess = x.guess ∧ (findSearchBound e f tight (computeCost e 0 x)).query = x.query ∧
      (findSearchBound e f tight (computeCost e 0 x)).tolerance = x.tolerance := by
    intro f
    unfold findSearchBound
    split_ifs <;> exact ⟨rfl, rfl, rfl⟩
  obtain ⟨g1, g2, g3⟩ := h0 fun i => g.stepSize.getD i 0
  generalize findSearchBound e (fun i => g.stepSize.getD i 0) tight (computeCost e 0 x) = y at g1 g2 g3
  have hg : (setGoal (prepareNewton e y)).guess = y.guess := rfl
  have hph : (setGoal (prepareNewton e y)).phys = e.eval y.guess := rfl
  have hdf : (setGoal (prepareNewton e y)).diff = fun k => e.eval y.guess k - y.query k := rfl
  have hds : (setGoal (prepareNewton e y)).distance = e.sqrt (normSq fun k => e.eval y.guess k - y.query k) := rfl
  have htl : (setGoal (prepareNewton e y)).tolerance = y.tolerance := rfl
  have hc : isConverged (setGoal (prepareNewton e y)) = true := by
    unfold isConverged
    rw [hds, htl, g3, hxt, g1, hxg, g2, hxq, normSq_eq, Bool.or_eq_true]
    exact Or.inr (by simpa using hd)
  have hn : newton e (n + 1) y = some (setGoal (prepareNewton e y)) := by
    unfold newton
    rw [newtonLoop]
    split_ifs <;> rfl
  rw [hn]
  dsimp only
  rw [if_pos hc]
  refine ⟨_, rfl, ?_, ?_, ?_, ?_⟩
  · change (setGoal (prepareNewton e y)).guess = _
    rw [hg, g1, hxg]
  · rfl
  · change (setGoal (prepareNewton e y)).diff = _
    rw [hdf, g2, hxq]
    rfl
  · change (setGoal (prepareNewton e y)).distance = _
    rw [hds, normSq_eq, g2, hxq]
    rfl

/-! ### Termination -/

theorem newtonLoop_terminates (e : Env K pd d) (fuel i : ℕ) (x : Data K pd d) (h : x.maxIter - i < fuel) :
    (newtonLoop e fuel i x).isSome := by
  induction fuel generalizing i x with
  | zero => omega
  | succ n ih =>
    rw [newtonLoop]
    split_ifs with h1 h2
    · rfl
    · apply ih
      change x.maxIter - (i + 1) < n
      omega
    · rfl

/-- C30: Newton's method makes at most `max_iter` steps (the loop condition is evaluated at most `max_iter + 1` times). -/
theorem newton_terminates (e : Env K pd d) (x : Data K pd d) : (newton e (x.maxIter + 1) x).isSome :=
  newtonLoop_terminates e _ 0 _ (by change x.maxIter - 0 < _; omega)

theorem lmBody_frame (e : Env K pd d) (x : Data K pd d) :
    match lmBody e x with
    | .stop _ => True
    | .reject y => y.maxIter = x.maxIter ∧ y.lambda = x.lambda * 2 ∧ y.lambda ≤ 100000
    | .accept y => y.maxIter = x.maxIter ∧ (y.lambda = x.lambda ∨ y.lambda = x.lambda * (1 / 2)) := by
  unfold lmBody
  dsimp only
  split
  · trivial
  · rename_i y hy
    split_ifs at hy with h1 h2
    cases hy
    exact ⟨rfl, rfl, not_lt.1 h2⟩
  · rename_i y hy
    split_ifs at hy with h1 h2 h3
    · cases hy; exact ⟨rfl, Or.inr rfl⟩
    · cases hy; exact ⟨rfl, Or.inl rfl⟩

theorem lmLoop_terminates (e : Env K pd d) (fuel i r : ℕ) (x : Data K pd d) (hl : 0 < x.lambda)
    (hr : 100000 < x.lambda * 2 ^ r) (h : 2 * (x.maxIter - i) + r < fuel) : (lmLoop e fuel i x).isSome := by
  induction fuel generalizing i r x with
  | zero => omega
  | succ n ih =>
    rw [lmLoop]
    split_ifs with h1 h2
    · rfl
    · have hb := lmBody_frame e x
      rcases hs : lmBody e x with z | z | z
      · rfl
      · rw [hs] at hb
        dsimp only at hb ⊢
        obtain ⟨hm, hz, hle⟩ := hb
        cases r with
        | zero =>
          exfalso
          rw [pow_zero, mul_one] at hr
          linarith
        | succ r =>
          apply ih i r z (by rw [hz]; linarith)
          · rw [hz]
            calc (100000 : K) < x.lambda * 2 ^ (r + 1) := hr
              _ = x.lambda * 2 * 2 ^ r := by ring
          · rw [hm]; omega
      · rw [hs] at hb
        dsimp only at hb ⊢
        obtain ⟨hm, hz⟩ := hb
        apply ih (i + 1) (r + 1) z
        · rcases hz with hz | hz <;> rw [hz] <;> linarith
        · have hp : (0 : K) < 2 ^ r := by positivity
          have hx : 0 < x.lambda * 2 ^ r := by positivity
          rcases hz with hz | hz
          · rw [hz]
            calc (100000 : K) < x.lambda * 2 ^ r := hr
              _ ≤ x.lambda * 2 ^ r * 2 := by linarith
              _ = x.lambda * 2 ^ (r + 1) := by ring
          · rw [hz]
            calc (100000 : K) < x.lambda * 2 ^ r := hr
              _ = x.lambda * (1 / 2) * 2 ^ (r + 1) := by ring
        · rw [hm]; omega
    · rfl

/-- C30: Levenberg-Marquardt makes at most `2 * max_iter + 17` steps, rejected ones included, for every behaviour of the
objective and the solver. -/
theorem levenberg_marquart_terminates (e : Env K pd d) (x : Data K pd d) :
    (levenbergMarquart e (2 * x.maxIter + 18) x).isSome := by
  unfold levenbergMarquart
  apply lmLoop_terminates e _ 0 17
  · change (0 : K) < 1
    exact one_pos
  · change (100000 : K) < 1 * 2 ^ 17
    norm_num
  · change 2 * (x.maxIter - 0) + 17 < _
    omega

theorem lm_terminates' (e : Env K pd d) (fuel : ℕ) (x : Data K pd d) (h : 2 * x.maxIter + 17 < fuel) :
    (levenbergMarquart e fuel x).isSome := by
  unfold levenbergMarquart
  apply lmLoop_terminates e _ 0 17
  · change (0 : K) < 1
    exact one_pos
  · change (100000 : K) < 1 * 2 ^ 17
    norm_num
  · change 2 * (x.maxIter - 0) + 17 < _
    omega

theorem prepareSlsqp_mode (e : Env K pd d) (x : Data K pd d) : (prepareSlsqp e x).mode = x.mode := by
  unfold prepareSlsqp
  dsimp only
  split_ifs <;> rfl

theorem slsqpLoop_terminates (e : Env K pd d) (fuel n m : ℕ) (x : Data K pd d) (hnm : n ≤ m) (hm : m - n < fuel)
    (h1 : (e.slsqp m).2 ≠ 1) (h2 : (e.slsqp m).2 ≠ -1) : (slsqpLoop e fuel n x).isSome := by
  induction fuel generalizing n x with
  | zero => omega
  | succ f ih =>
    rw [slsqpLoop, prepareSlsqp_mode]
    dsimp only
    split_ifs with hc
    · apply ih
      · rcases Nat.lt_or_ge n m with h | h
        · exact h
        · exfalso
          have : n = m := by omega
          subst this
          rcases hc with hc | hc
          · exact h1 hc
          · exact h2 hc
      · rcases Nat.lt_or_ge n m with h | h
        · omega
        · exfalso
          have : n = m := by omega
          subst this
          rcases hc with hc | hc
          · exact h1 hc
          · exact h2 hc
    · rfl

/-- C30: the whole query returns, with at most `max (50 * max_iter + 17) m` passes in each loop, provided `slsqp` stops asking
for evaluations within `m` calls. -/
theorem query_terminates (e : Env K pd d) (g : Grid.GridPoints K) (nearest : ℕ) (tight : Bool) (query : Fin d → K)
    (tol : K) (maxIter : ℤ) (mem : Data K pd d) (hn : (Grid.idToGridPoint g nearest).isSome) (fuel : ℕ)
    (hs : Spec.SlsqpStops e fuel) (hf : 50 * (if maxIter < 0 then pd * 20 else maxIter.toNat) + 17 < fuel) :
    (verboseQuery e fuel (some g) nearest tight query tol maxIter mem).isSome := by
  obtain ⟨p, hp⟩ := Option.isSome_iff_exists.1 hn
  unfold verboseQuery
  dsimp only
  rw [hp]
  dsimp only
  generalize hx : ({ setup query tol maxIter mem with guess := fun i => p.getD i 0 } : Data K pd d) = x
  have hmi : x.maxIter = if maxIter < 0 then pd * 20 else maxIter.toNat := by rw [← hx]; rfl
  rw [← hmi] at hf
  clear hx hmi
  unfold search
  dsimp only
  generalize (⟨(computeCost e 0 x).costJ, (computeCost e 0 x).guess⟩ : Best K pd) = b0
  have hm0 : (findSearchBound e (fun i => g.stepSize.getD i 0) tight (computeCost e 0 x)).maxIter = x.maxIter := by
    unfold findSearchBound
    split_ifs <;> rfl
  generalize findSearchBound e (fun i => g.stepSize.getD i 0) tight (computeCost e 0 x) = x0 at hm0
  have hN := newtonLoop_terminates e fuel 0 (setGoal (prepareNewton e x0)) (by change x0.maxIter - 0 < _; omega)
  obtain ⟨x1, hx1⟩ := Option.isSome_iff_exists.1 hN
  have hx1' : newton e fuel x0 = some x1 := hx1
  have hm1 : x1.maxIter = x0.maxIter := by
    have : ∀ fuel i (x y : Data K pd d), newtonLoop e fuel i x = some y → y.maxIter = x.maxIter := by
      intro fuel
      induction fuel with
      | zero => intro i x y h; simp [newtonLoop] at h
      | succ n ih =>
        intro i x y h
        rw [newtonLoop] at h
        split_ifs at h
        · cases h; rfl
        · have h' := ih _ _ _ h
          exact h'.trans rfl
        · cases h; rfl
    have h' := this _ _ _ _ hx1
    exact h'.trans rfl
  rw [hx1']
  dsimp only
  split_ifs with hc1
  · rfl
  · have hk1 : (keepBest b0 x1).2.1.maxIter = x1.maxIter := by unfold keepBest; split_ifs <;> rfl
    generalize keepBest b0 x1 = kb at hk1
    obtain ⟨b2, x2, i2⟩ := kb
    dsimp only at hk1 ⊢
    obtain ⟨m, hmf, h1, h2⟩ := hs
    have hS : (slsqpSearch e fuel { x2 with maxIter := x2.maxIter * 5 }).isSome := by
      unfold slsqpSearch
      rw [Option.isSome_map]
      exact slsqpLoop_terminates e fuel 0 m _ (Nat.zero_le _) (by omega) h1 h2
    obtain ⟨x3, hx3⟩ := Option.isSome_iff_exists.1 hS
    have hm3 : x3.maxIter = x2.maxIter * 5 := by
      unfold slsqpSearch at hx3
      obtain ⟨z, hz, rfl⟩ := Option.map_eq_some_iff.1 hx3
      have hp : ∀ x : Data K pd d, (prepareSlsqp e x).maxIter = x.maxIter := by
        intro x
        unfold prepareSlsqp
        dsimp only
        split_ifs <;> rfl
      have : ∀ fuel i (x y : Data K pd d), slsqpLoop e fuel i x = some y → y.maxIter = x.maxIter := by
        intro fuel
        induction fuel with
        | zero => intro i x y h; simp [slsqpLoop] at h
        | succ n ih =>
          intro i x y h
          rw [slsqpLoop] at h
          split_ifs at h
          · rw [ih _ _ _ h, hp]
          · cases h; rw [hp]
      have := this _ _ _ _ hz
      have h' := hp { { x2 with maxIter := x2.maxIter * 5 } with mode := 0 }
      exact this.trans h'
    rw [hx3]
    dsimp only
    split_ifs with hc3
    · rfl
    · have hk2 : (keepBest b2 x3).2.1.maxIter = x3.maxIter := by unfold keepBest; split_ifs <;> rfl
      generalize keepBest b2 x3 = kb at hk2
      obtain ⟨b4, x4, i4⟩ := kb
      dsimp only at hk2 ⊢
      have hL := lm_terminates' e fuel { x4 with maxIter := x4.maxIter * 5 } (by change 2 * (x4.maxIter * 5) + 17 < _; omega)
      obtain ⟨x5, hx5⟩ := Option.isSome_iff_exists.1 hL
      rw [hx5]
      dsimp only
      split_ifs <;> rfl

/-! ### Witnesses -/

/-- Square root that is exact on squares of rationals. -/
def ratSqrt (x : ℚ) : ℚ := Rat.sqrt x

/-- A one-dimensional spline `S` with derivatives `S1`, `S2` on `[lo, hi]`, exact arithmetic, and given answers of `slsqp`. -/
def env1 (S S1 S2 : ℚ → ℚ) (lo hi : ℚ) (slsqp : ℕ → ℚ × ℤ) : Env ℚ 1 1 where
  eval u _ := S (u 0)
  deriv u o _ := if o 0 = 0 then S (u 0) else if o 0 = 1 then S1 (u 0) else S2 (u 0)
  lo _ := lo
  hi _ := hi
  sqrt := ratSqrt
  div := (· / ·)
  solve a b i := b i / a 0 0
  slsqp n := (fun _ => (slsqp n).1, (slsqp n).2)
  modified := false
  junk _ := 0

/-- Memory before the query. -/
def mem1 : Data ℚ 1 1 :=
  ⟨fun _ => 0, fun _ => 0, fun _ => 0, fun _ => 0, fun _ _ => 0, fun _ _ _ => 0, fun _ => 0, fun _ _ => 0, fun _ _ => 0,
    fun _ => 0, fun _ => 0, fun _ => 0, 0, 0, 0, 0, 0, 0, 0, 0, 0, fun _ => 0, 0⟩

/-- The cubic `1 + 2 u³` on `[-1/2, 1/2]`. -/
def cubic : Env ℚ 1 1 :=
  env1 (fun u => 1 + 2 * u ^ 3) (fun u => 6 * u ^ 2) (fun u => 12 * u) (-1 / 2) (1 / 2) fun _ => (0, 9)

/-- Result of the query `0` on the cubic, with the samples `-1/2` and `1/2`, the nearest of which is number zero. -/
def cubicResult : Option (Exit × Data ℚ 1 1) :=
  verboseQuery cubic 100 (plant cubic fun _ => 2) 0 false (fun _ => 0) (1 / 10 ^ 12) 20 mem1

/-- C31, second half, is false: for the query `0` on the cubic `1 + 2 u³` the initial guess `-1/2` has distance `3/4` (and is
the nearest point), Newton's method stops at the inflection point `u = 0`, and distance `1` is returned. -/
theorem worse_than_initial_violates :
    (cubicResult.map fun r => (r.1, r.2.guess 0, r.2.distance)) = some (.newton, 0, 1) ∧
    (plant cubic fun _ => 2).bind (fun g => Grid.idToGridPoint g 0) = some [-1 / 2] ∧
    cubic.sqrt ((cubic.eval (fun _ => -1 / 2) 0 - 0) ^ 2) = 3 / 4 := by
  decide +kernel

/-- The linear B-spline `1 + |u|` on `[-1, 1]` with a knot at `0`; `slsqp` runs into its iteration limit at `0`. -/
def kink : Env ℚ 1 1 :=
  env1 (fun u => if u < 0 then 1 - u else 1 + u) (fun u => if u < 0 then -1 else 1) (fun _ => 0) (-1) 1 fun _ => (0, 9)

/-- Result of the query `0` on the kinked spline. -/
def kinkResult : Option (Exit × Data ℚ 1 1) :=
  verboseQuery kink 100 (plant kink fun _ => 2) 0 false (fun _ => 0) (1 / 10 ^ 12) 1 mem1

/-- C31, first half, is false: the returned coordinate is `0`, but the returned nearest point is the one of `-1/65537`, the
last step rejected by Levenberg-Marquardt. -/
theorem inconsistent_result_violates :
    (kinkResult.map fun r => (r.1, r.2.guess 0, r.2.phys 0)) = some (.notImproved, 0, 1 + 1 / 65537) ∧
    kink.eval (fun _ => 0) 0 = 1 := by
  decide +kernel

/-- Hypotheses of C29 and C31 are met, with both exits. -/
example : (∀ i, cubic.lo i < cubic.hi i) ∧ (plant cubic fun _ => 2).isSome ∧ cubicResult.isSome ∧
    (∀ i, kink.lo i < kink.hi i) ∧ (plant kink fun _ => 2).isSome ∧ kinkResult.isSome := by
  decide +kernel

/-- the hypothesis of `proximity_sample_hit` is met: the query `1` on the kinked spline, sample `0` -/
example : (plant kink fun _ => 3).bind (fun g => Grid.idToGridPoint g 1) = some [0] ∧
    kink.sqrt (∑ k, (kink.eval (fun i => ([0] : List ℚ).getD i 0) k - (fun _ => 1) k) ^ 2) < 1 / 10 ^ 12 := by
  decide +kernel

/-- Tight bounds: from the sample `-1` with step one the search stays in `[-1, 0]`. -/
example : ((verboseQuery kink 100 (plant kink fun _ => 3) 0 true (fun _ => 0) (1 / 10 ^ 12) 1 mem1).map
    fun r => (r.1, r.2.guess 0, r.2.lower 0, r.2.upper 0)) = some (.notImproved, 0, -1, 0) := by
  decide +kernel

/-- Hypotheses of C30 are met; seventeen rejected steps do occur. -/
example : Spec.SlsqpStops kink 68 ∧ 50 * (if (1 : ℤ) < 0 then 1 * 20 else (1 : ℤ).toNat) + 17 < 68 ∧
    (lmLoop kink 16 0 (lmStart kink { mem1 with lower := fun _ => -1, upper := fun _ => 1, maxIter := 25 })).isNone ∧
    (lmLoop kink 17 0 (lmStart kink { mem1 with lower := fun _ => -1, upper := fun _ => 1, maxIter := 25 })).isSome := by
  refine ⟨⟨0, by norm_num, by decide, by decide⟩, by decide, ?_, ?_⟩ <;> decide +kernel

end Splinepy.Proximity
