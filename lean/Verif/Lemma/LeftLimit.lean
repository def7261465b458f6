import Verif.Lemma.Mirror
import Verif.Lemma.Spline
import Mathlib.Algebra.Polynomial.Roots
import Mathlib.Order.Interval.Set.Infinite

/-!
Splines are polynomials on the span that ends at a parameter, including the end if the functions are continuous there.
-/
namespace Splinepy.LeftLimit
open Splinepy.Blossom Splinepy.Spec Splinepy.Slice Finset
open Splinepy.Index (Spline)

variable {K : Type} [Field K] [LinearOrder K] [IsStrictOrderedRing K]

omit [LinearOrder K] [IsStrictOrderedRing K] in
theorem bl_poly (t : ℕ → K) (μ d j : ℕ) : ∃ P : Polynomial K, ∀ x, P.eval x = bl t μ (fun _ => x) d j := by
  induction d generalizing j with
  | zero => exact ⟨Polynomial.C (if j = μ then 1 else 0), fun x => by rw [Polynomial.eval_C]; rfl⟩
  | succ d ih =>
    obtain ⟨P, hP⟩ := ih j
    obtain ⟨Q, hQ⟩ := ih (j + 1)
    refine ⟨(Polynomial.X - Polynomial.C (t j)) * Polynomial.C (1 / (t (j + d + 1) - t j)) * P +
      (Polynomial.C (t (j + d + 2)) - Polynomial.X) * Polynomial.C (1 / (t (j + d + 2) - t (j + 1))) * Q, fun x => ?_⟩
    rw [bl_succ]
    unfold R
    simp only [Polynomial.eval_add, Polynomial.eval_mul, Polynomial.eval_sub, Polynomial.eval_X, Polynomial.eval_C, hP, hQ]
    ring

/-- a knot is the end of the domain, or occurs at most as often as the degree -/
def JoinedAt (d : Direction K) (b : K) : Prop := ∀ kv, d.knots = some kv → b = d.upper ∨ kv.count b ≤ d.deg

/-- the basis functions on the span that ends at `b` -/
theorem direction_poly {p : ℕ} {kv : List K} (hv : (⟨p, some kv⟩ : Direction K).Valid) {b : K} (h1 : (⟨p, some kv⟩ : Direction K).lower < b)
    (h2 : b ≤ (⟨p, some kv⟩ : Direction K).upper) (hj : JoinedAt ⟨p, some kv⟩ b) :
    ∃ x0 < b, (⟨p, some kv⟩ : Direction K).lower ≤ x0 ∧ ∃ P : ℕ → Polynomial K, ∀ j x, x0 ≤ x → x ≤ b → (⟨p, some kv⟩ : Direction K).basis x j = (P j).eval x := by
  obtain ⟨hs, hN, -⟩ := hv kv rfl
  have hj := hj kv rfl
  have ht := KnotInsertion.knotSeq_monotone hs
  obtain ⟨r1, r2, r3⟩ := Mirror.around hs b
  set a := (kv.filter (· < b)).length with ha
  simp only [Direction.lower, Direction.upper, Direction.basis] at *
  set n := kv.length - p - 1 with hn
  have hpa : p < a := by
    by_contra hcon
    by_cases h : p < a + kv.count b
    · exact absurd (r2 p (by omega) h) h1.ne
    · exact absurd (r3 p (by omega) (by omega)) (not_lt.2 h1.le)
  have han : a ≤ n := by
    by_contra hcon
    exact absurd (r1 n (by omega)) (not_lt.2 h2)
  have hlt : knotSeq kv (a - 1) < b := r1 _ (by omega)
  have hge : b ≤ knotSeq kv (a - 1 + 1) := by
    rw [show a - 1 + 1 = a by omega]
    by_cases h : a < a + kv.count b
    · exact (r2 a le_rfl h).ge
    · exact (r3 a (by omega) (by omega)).le
  choose P hP using fun j => bl_poly (knotSeq kv) (a - 1) p j
  refine ⟨knotSeq kv (a - 1), hlt, ht (by omega), P, fun j x hx0 hx1 => ?_⟩
  rw [hP]
  rcases lt_or_eq_of_le hx1 with h | h
  · exact Mirror.basisC_eq_bl ht (Or.inl ⟨(lt_of_lt_of_le h h2).ne, hx0, lt_of_lt_of_le h hge⟩) _ _
  · subst h
    by_cases hbn : x = knotSeq kv n
    · refine Mirror.basisC_eq_bl ht (Or.inr ⟨hbn, hlt, ?_⟩) _ _
      rw [show a - 1 + 1 = a by omega]
      refine le_antisymm (by rw [show a - 1 + 1 = a by omega] at hge; exact hge) ?_
      rw [hbn]
      exact ht han
    · have hc : kv.count x ≤ p := hj.resolve_left hbn
      have hxn : x < knotSeq kv n := lt_of_le_of_ne h2 hbn
      have hamn : a + kv.count x ≤ n := by
        by_contra hcon
        exact absurd (r2 n han (by omega)) hxn.ne'
      have hmid : ∀ k, 1 ≤ k → k ≤ kv.count x → knotSeq kv (a - 1 + k) = x := fun k k1 k2 => r2 _ (by omega) (by omega)
      have hr' : x < knotSeq kv (a - 1 + kv.count x + 1) := r3 _ (by omega) (by omega)
      have hle : knotSeq kv (a - 1 + kv.count x) ≤ x := by
        rcases Nat.eq_zero_or_pos (kv.count x) with h0 | h0
        · rw [h0, Nat.add_zero]; exact hlt.le
        · exact (hmid _ h0 le_rfl).le
      rw [Mirror.basisC_eq_bl ht (Or.inl ⟨hbn, hle, hr'⟩), ← bl_const_eq hlt hr' hmid p hc]

theorem basisProduct_middle (B1 B2 : List (ℕ → K)) (b : ℕ → K) (cs : List ℕ) (h : B1.length < cs.length) :
    basisProduct (B1 ++ b :: B2) cs = basisProduct B1 (cs.take B1.length) * basisProduct B2 (cs.drop (B1.length + 1)) * b (cs.getD B1.length 0) := by
  conv_lhs => rw [← List.take_append_drop B1.length cs]
  rw [basisProduct_pair _ _ _ _ (by rw [List.length_take]; omega), List.drop_eq_getElem_cons h]
  unfold basisProduct
  rw [List.zipWith_cons_cons, List.prod_cons, List.getD_eq_getElem _ _ h]
  ring

/-- numerators are polynomials where the basis functions are -/
theorem num_poly {s : Spline K (List K)} {D1 D2 : List (Direction K)} {d : Direction K} (hd : directions s = D1 ++ d :: D2) {u1 u2 : List K}
    (h1 : D1.length = u1.length) (c : ℕ → K) {x0 b : K} {P : ℕ → Polynomial K}
    (hP : ∀ j x, x0 ≤ x → x ≤ b → d.basis x j = (P j).eval x) :
    ∃ Q : Polynomial K, ∀ x, x0 ≤ x → x ≤ b → num s c (u1 ++ x :: u2) = Q.eval x := by
  have hb : ∀ x, basisValues s (u1 ++ x :: u2) = List.zipWith (fun d x j => Direction.basis d x j) D1 u1 ++ (fun j => d.basis x j) ::
      List.zipWith (fun d x j => Direction.basis d x j) D2 u2 := by
    intro x
    unfold basisValues
    rw [hd, List.zipWith_append h1, List.zipWith_cons_cons]
  have hB : (List.zipWith (fun (d : Direction K) x j => Direction.basis d x j) D1 u1).length = D1.length := by simp [h1]
  have hcs : ∀ g, D1.length < (digits (netSize s) g).length := by
    intro g
    rw [digits_length]
    unfold netSize
    rw [hd]
    simp
  refine ⟨∑ g ∈ range (netSize s).prod, Polynomial.C (basisProduct (List.zipWith (fun d x j => Direction.basis d x j) D1 u1) ((digits (netSize s) g).take D1.length) *
    basisProduct (List.zipWith (fun d x j => Direction.basis d x j) D2 u2) ((digits (netSize s) g).drop (D1.length + 1)) * (weightAt s g * c g)) *
    P ((digits (netSize s) g).getD D1.length 0), fun x hx0 hx1 => ?_⟩
  unfold num
  rw [hb, Polynomial.eval_finsetSum]
  refine Finset.sum_congr rfl fun g _ => ?_
  rw [basisProduct_middle _ _ _ _ (by rw [hB]; exact hcs g), hB, Polynomial.eval_mul, Polynomial.eval_C, ← hP _ _ hx0 hx1]
  ring

/-- two splines with the same points on an interval before `b`, and continuous at `b`, have the same point at `b` -/
theorem point_at_end {r s : Spline K (List K)} (hr : ValidSpline r) (hs : ValidSpline s) {D1 D2 E1 E2 : List (Direction K)} {p p' : ℕ} {kv kv' : List K}
    (hdr : directions r = D1 ++ ⟨p, some kv⟩ :: D2) (hds : directions s = E1 ++ ⟨p', some kv'⟩ :: E2) {u1 u2 : List K} (h1 : D1.length = u1.length)
    (h2 : E1.length = u1.length) {a b : K} (ha : a < b) (hjr : JoinedAt ⟨p, some kv⟩ b) (hjs : JoinedAt ⟨p', some kv'⟩ b)
    (hlr : (⟨p, some kv⟩ : Direction K).lower < b) (hls : (⟨p', some kv'⟩ : Direction K).lower < b)
    (hbr : InDomain r (u1 ++ b :: u2)) (hbs : InDomain s (u1 ++ b :: u2)) (k : ℕ)
    (hsame : ∀ x, a ≤ x → x < b → InDomain s (u1 ++ x :: u2) → point r (u1 ++ x :: u2) k = point s (u1 ++ x :: u2) k) :
    point r (u1 ++ b :: u2) k = point s (u1 ++ b :: u2) k := by
  have hcr := hbr
  have hcs := hbs
  have split : ∀ {q : Spline K (List K)} {D1 D2 : List (Direction K)} {d : Direction K} (x y : K), directions q = D1 ++ d :: D2 → D1.length = u1.length →
      InDomain q (u1 ++ x :: u2) → d.Contains x ∧ (d.Contains y → InDomain q (u1 ++ y :: u2)) := by
    intro q D1 D2 d x y hd hl hx
    unfold InDomain at hx ⊢
    rw [hd] at hx ⊢
    have f1 := List.forall₂_take_append _ _ _ hx
    have f2 := List.forall₂_drop_append _ _ _ hx
    rw [← hl, List.take_left] at f1
    rw [← hl, List.drop_left] at f2
    obtain ⟨g1, g2⟩ := List.forall₂_cons.1 f2
    exact ⟨g1, fun h => List.rel_append f1 (.cons h g2)⟩
  have br := (split b b hdr h1 hbr).1
  have bs := (split b b hds h2 hbs).1
  obtain ⟨xr, r1, r2, P, hP⟩ := direction_poly (hr.dirs _ (by rw [hdr]; simp)) hlr br.2 hjr
  obtain ⟨xs, s1, s2, P', hP'⟩ := direction_poly (hs.dirs _ (by rw [hds]; simp)) hls bs.2 hjs
  unfold point at hsame ⊢
  generalize hcR : (fun i => (r.controlPoints.getD i []).getD k 0) = cr at *
  generalize hcS : (fun i => (s.controlPoints.getD i []).getD k 0) = cs at *
  obtain ⟨Q1, q1⟩ := num_poly (u2 := u2) hdr h1 cr hP
  obtain ⟨Q2, q2⟩ := num_poly (u2 := u2) hdr h1 (fun _ => 1) hP
  obtain ⟨Q3, q3⟩ := num_poly (u2 := u2) hds h2 cs hP'
  obtain ⟨Q4, q4⟩ := num_poly (u2 := u2) hds h2 (fun _ => 1) hP'
  have hz : Q1 * Q4 - Q3 * Q2 = 0 := by
    apply Polynomial.eq_zero_of_infinite_isRoot
    have hm : max a (max xr xs) < b := max_lt ha (max_lt r1 s1)
    refine (Set.Ico_infinite hm).mono fun x hx => ?_
    obtain ⟨x1, x2⟩ := hx
    have ax : a ≤ x := (le_max_left _ _).trans x1
    have rx : xr ≤ x := ((le_max_left _ _).trans (le_max_right _ _)).trans x1
    have sx : xs ≤ x := ((le_max_right _ _).trans (le_max_right _ _)).trans x1
    have dr : InDomain r (u1 ++ x :: u2) := (split b x hdr h1 hbr).2 ⟨r2.trans rx, x2.le.trans br.2⟩
    have ds : InDomain s (u1 ++ x :: u2) := (split b x hds h2 hbs).2 ⟨s2.trans sx, x2.le.trans bs.2⟩
    have e := hsame x ax x2 ds
    rw [value_eq hr dr, value_eq hs ds, div_eq_div_iff (den_pos hr dr).ne' (den_pos hs ds).ne', q1 x rx x2.le, q2 x rx x2.le, q3 x sx x2.le, q4 x sx x2.le] at e
    show Polynomial.IsRoot _ _
    rw [Polynomial.IsRoot, Polynomial.eval_sub, Polynomial.eval_mul, Polynomial.eval_mul, e, sub_self]
  rw [value_eq hr hbr, value_eq hs hbs, div_eq_div_iff (den_pos hr hbr).ne' (den_pos hs hbs).ne', q1 b r1.le le_rfl, q2 b r1.le le_rfl, q3 b s1.le le_rfl, q4 b s1.le le_rfl]
  have := congrArg (Polynomial.eval b) hz
  rw [Polynomial.eval_sub, Polynomial.eval_mul, Polynomial.eval_mul, Polynomial.eval_zero] at this
  linarith

end Splinepy.LeftLimit
