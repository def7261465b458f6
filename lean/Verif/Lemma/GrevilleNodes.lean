import Verif.Props.Greville
import Verif.Props.DetSpline
import Verif.Lemma.SchoenbergWhitney
import Verif.Lemma.RepKnots

/-!
The B-splines of a clamped knot vector are determined by their values at the Greville abscissae.
-/
namespace Splinepy.Greville
open Finset Splinepy.Spec Splinepy.Slice

set_option linter.unusedSectionVars false

variable {K : Type} [Field K] [LinearOrder K] [IsStrictOrderedRing K]

theorem filter_loop_id {tol : K} {g : List K} (h : ∀ i, i + 1 < g.length → tol ≤ g.getD (i + 1) 0 - g.getD i 0) (n j : ℕ) (hj : 1 ≤ j) (hn : j + n ≤ g.length) :
    (List.range' j n).foldl (filterStep tol) (g, g.getD (j - 1) 0) = (g, g.getD (j + n - 1) 0) := by
  induction n generalizing j with
  | zero => rfl
  | succ n ih =>
    rw [List.range'_succ, List.foldl_cons]
    have e : filterStep tol (g, g.getD (j - 1) 0) j = (g, g.getD (j + 1 - 1) 0) := by
      unfold filterStep
      rw [if_neg]
      · simp
      · have := h (j - 1) (by omega)
        rw [show j - 1 + 1 = j by omega] at this
        rw [not_lt, abs_sub_comm]
        exact le_trans this (le_abs_self _)
    rw [e, ih (j + 1) (by omega) (by omega)]
    congr 2
    omega

theorem filter_id {tol : K} {g : List K} (h : ∀ i, i + 1 < g.length → tol ≤ g.getD (i + 1) 0 - g.getD i 0) : filter tol g = g := by
  unfold filter
  split
  · rcases Nat.lt_or_ge g.length 3 with h3 | h3
    · rw [show g.length - 3 = 0 by omega]
      rfl
    · have := filter_loop_id h (g.length - 3) 2 (by omega) (by omega)
      rw [show 2 - 1 = 1 from rfl] at this
      rw [this]
  · rfl

theorem getD_knotSeq {kv : List K} {i : ℕ} (h : i < kv.length) : kv.getD i 0 = knotSeq kv i := by
  unfold knotSeq
  rw [List.getD_eq_getElem _ _ h, List.getD_eq_getElem _ _ h]

/-- Greville abscissae of a clamped knot vector whose inner knots occur at most `p` times: the collocation matrix is regular. -/
theorem greville_determined {kv : List K} {p : ℕ} {tol : K} (h : Spec.IsKnotVector kv p) (hc : Spec.Clamped kv p)
    (hstep : ∀ j, 1 ≤ j → j < kv.length - p - 1 → knotSeq kv j < knotSeq kv (j + p)) (hgap : ∀ j, 1 ≤ j → j < kv.length - p - 1 → p * tol ≤ knotSeq kv (j + p) - knotSeq kv j) :
    DetSpline.Determined (fun x j => basisC (knotSeq kv) (kv.length - p - 1) p j x) (kv.length - p - 1) (greville kv p tol) := by
  have hs := h.size
  have hd := h.degree
  have hp : (0 : K) < p := by exact_mod_cast hd
  generalize hn : kv.length - p - 1 = n at *
  have hpn : p < n := by omega
  have hmono := KnotInsertion.knotSeq_monotone h.sorted
  have hdiff : ∀ j, j + 1 < n → abscissa kv p (j + 1) - abscissa kv p j = (knotSeq kv (j + 1 + p) - knotSeq kv (j + 1)) / p := by
    intro j hj
    rw [abscissa_succ_sub, getD_knotSeq (by omega), getD_knotSeq (by omega), show j + p + 1 = j + 1 + p by omega]
  have hgr : greville kv p tol = abscissae kv p := by
    unfold greville
    refine filter_id fun i hi => ?_
    rw [abscissae_length, hn] at hi
    rw [abscissae_getD _ _ _ (by omega), abscissae_getD _ _ _ (by omega), hdiff i hi, le_div_iff₀ hp, mul_comm]
    exact hgap (i + 1) (by omega) hi
  have hlt : ∀ j, j + 1 < n → abscissa kv p j < abscissa kv p (j + 1) := by
    intro j hj
    rw [← sub_pos, hdiff j hj]
    exact div_pos (sub_pos.2 (hstep _ (by omega) hj)) hp
  have hstrict : ∀ i j, i < j → j < n → abscissa kv p i < abscissa kv p j := by
    intro i j hij
    induction j, hij using Nat.le_induction with
    | base => intro hj; exact hlt i hj
    | succ j _ ih => intro hj; exact lt_trans (ih (by omega)) (hlt j hj)
  have habs : ∀ j < n, abscissa kv p j = (∑ k ∈ range p, knotSeq kv (k + j + 1)) / p := by
    intro j hj
    rw [abscissa_eq]
    congr 1
    refine sum_congr rfl fun k hk => ?_
    rw [mem_range] at hk
    exact getD_knotSeq (by omega)
  have hfirst : abscissa kv p 0 = knotSeq kv p := by rw [abscissa_first h hc, getD_knotSeq (by omega)]
  have hlast : abscissa kv p (n - 1) = knotSeq kv n := by rw [← hn, abscissa_last h hc, getD_knotSeq (by omega)]
  have hends : knotSeq kv p < knotSeq kv n := by rw [← hfirst, ← hlast]; exact hstrict _ _ (by omega) (by omega)
  have hin : ∀ j, 0 < j → j + 1 < n → knotSeq kv j < abscissa kv p j ∧ abscissa kv p j < knotSeq kv (j + p + 1) := by
    intro j h0 h1
    rw [habs j (by omega), lt_div_iff₀ hp, div_lt_iff₀ hp]
    constructor
    · have : ∑ k ∈ range p, knotSeq kv j < ∑ k ∈ range p, knotSeq kv (k + j + 1) := by
        refine sum_lt_sum (fun k _ => hmono (by omega)) ⟨p - 1, mem_range.2 (by omega), ?_⟩
        rw [show p - 1 + j + 1 = j + p by omega]
        exact hstep j (by omega) (by omega)
      rw [sum_const, card_range, nsmul_eq_mul] at this
      linarith
    · have : ∑ k ∈ range p, knotSeq kv (k + j + 1) < ∑ k ∈ range p, knotSeq kv (j + p + 1) := by
        refine sum_lt_sum (fun k hk => hmono (by have := mem_range.1 hk; omega)) ⟨0, mem_range.2 (by omega), ?_⟩
        rw [show 0 + j + 1 = j + 1 by omega, show j + p + 1 = j + 1 + p by omega]
        exact hstep (j + 1) (by omega) (by omega)
      rw [sum_const, card_range, nsmul_eq_mul] at this
      linarith
  have hmult : ∀ a, knotSeq kv p < a → a < knotSeq kv n → Boehm.mult (knotSeq kv) a ≤ p := by
    intro a ha0 ha1
    unfold Boehm.mult
    by_cases hex : ∃ k, knotSeq kv k = a
    · classical
      have hf := Nat.find_spec hex
      set k0 := Nat.find hex with hk0
      have hk1 : 1 ≤ k0 := by
        by_contra hlt0
        have : knotSeq kv k0 ≤ knotSeq kv p := hmono (by omega)
        rw [hf] at this
        exact absurd (lt_of_lt_of_le ha0 this) (lt_irrefl _)
      have hkn : k0 < n := by
        by_contra hge
        have : knotSeq kv n ≤ knotSeq kv k0 := hmono (by omega)
        rw [hf] at this
        exact absurd (lt_of_lt_of_le ha1 this) (lt_irrefl _)
      have hsub : {k | knotSeq kv k = a} ⊆ (Finset.Ico k0 (k0 + p) : Finset ℕ) := by
        intro k hk
        have hk : knotSeq kv k = a := hk
        rw [Finset.coe_Ico, Set.mem_Ico]
        refine ⟨Nat.find_min' hex hk, ?_⟩
        by_contra hge
        have h1 := hstep k0 hk1 hkn
        have h2 : knotSeq kv (k0 + p) ≤ knotSeq kv k := hmono (by omega)
        rw [hf] at h1
        rw [hk] at h2
        exact absurd (lt_of_lt_of_le h1 h2) (lt_irrefl _)
      have := Set.ncard_le_ncard hsub (Finset.finite_toSet _)
      rw [Set.ncard_coe_finset, Nat.card_Ico] at this
      omega
    · have : {k | knotSeq kv k = a} = ∅ := by
        ext k
        simp only [Set.mem_setOf_eq, Set.mem_empty_iff_false, iff_false]
        exact fun e => hex ⟨k, e⟩
      rw [this, Set.ncard_empty]
      omega
  intro c hzero
  have hrow : ∀ i < n, ∑ j ∈ range n, basisC (knotSeq kv) n p j (abscissa kv p i) * c j = 0 := by
    intro i hi
    refine hzero _ ?_
    rw [hgr]
    unfold abscissae
    exact List.mem_map.2 ⟨i, List.mem_range.2 (by omega), rfl⟩
  have hc0 : c 0 = 0 := by
    have := hrow 0 (by omega)
    have hfront : ∀ i, 0 ≤ i → i ≤ 0 + p → knotSeq kv i = knotSeq kv p := by
      intro i _ hi
      rw [← getD_knotSeq (by omega), ← getD_knotSeq (by omega)]
      exact hc.1 i (by omega)
    have hgt : knotSeq kv p < knotSeq kv (0 + p + 1) := by
      have := hstep 1 (by omega) (by omega)
      rwa [hfront 1 (by omega) (by omega), show 1 + p = 0 + p + 1 by omega] at this
    rw [hfirst, Finset.sum_eq_single 0] at this
    · rwa [basisC_at_knot hmono hfront hgt hends, if_pos rfl, one_mul] at this
    · intro j _ hj
      rw [basisC_at_knot hmono hfront hgt hends, if_neg hj, zero_mul]
    · intro hh; exact absurd (mem_range.2 (by omega)) hh
  have hcn : c (n - 1) = 0 := by
    have := hrow (n - 1) (by omega)
    have hback : ∀ i, n ≤ i → i < n + p → knotSeq kv i = knotSeq kv n := by
      intro i hi1 hi2
      rw [← getD_knotSeq (by omega), ← getD_knotSeq (by omega)]
      have := hc.2 i (by omega) (by omega)
      rwa [hn] at this
    have hgt : knotSeq kv (n - 1) < knotSeq kv n := by
      have := hstep (n - 1) (by omega) (by omega)
      rwa [hback (n - 1 + p) (by omega) (by omega)] at this
    rw [hlast, Finset.sum_eq_single (n - 1)] at this
    · rwa [basisC_at_end hmono hends hback rfl hgt, if_pos rfl, one_mul] at this
    · intro j _ hj
      rw [basisC_at_end hmono hends hback rfl hgt, if_neg hj, zero_mul]
    · intro hh; exact absurd (mem_range.2 (by omega)) hh
  have hpts : ∀ k, 0 < k → k < n - 1 → knotSeq kv p < abscissa kv p k ∧ abscissa kv p k < knotSeq kv n := by
    intro k h1 h2
    rw [← hfirst, ← hlast]
    exact ⟨hstrict _ _ h1 (by omega), hstrict _ _ h2 (by omega)⟩
  have hxm : StrictMono (fun i : Fin (n - 2) => abscissa kv p (i.val + 1)) := by
    intro a b hab
    have hb := b.isLt
    exact hstrict _ _ (by have : a.val < b.val := hab; omega) (by omega)
  have hdet := Boehm.schoenberg_whitney (t := knotSeq kv) hmono hd hxm
    (fun i => lt_of_le_of_lt (hmono (Nat.zero_le p)) (hpts _ (by omega) (by omega)).1)
    (fun i => ⟨n, (hpts _ (by omega) (by omega)).2⟩)
    (fun i => hmult _ (hpts _ (by omega) (by omega)).1 (hpts _ (by omega) (by omega)).2)
    (fun i : Fin (n - 2) => i.val + 1) (fun a b hab => by have : a.val < b.val := hab; dsimp only; omega)
    (fun i => hin (i.val + 1) (by omega) (by omega))
  have hv : (fun l : Fin (n - 2) => c (l.val + 1)) = 0 := by
    refine Matrix.eq_zero_of_vecMul_eq_zero (ne_of_gt hdet) ?_
    funext i
    simp only [Matrix.vecMul, dotProduct, Pi.zero_apply, Boehm.colloc, Matrix.of_apply]
    have hr := hrow (i.val + 1) (by omega)
    have hn2 : n = (n - 2) + 1 + 1 := by omega
    rw [show range n = range ((n - 2) + 1 + 1) from congrArg range hn2, Finset.sum_range_succ, Finset.sum_range_succ', hc0,
      show n - 2 + 1 = n - 1 by omega, hcn, mul_zero, mul_zero, add_zero, add_zero] at hr
    rw [Finset.sum_range] at hr
    refine Eq.trans (Finset.sum_congr rfl ?_) hr
    intro l _
    rw [mul_comm]
    congr 1
    exact (basisC_eq_basis (ne_of_lt (hpts (i.val + 1) (by omega) (by omega)).2) _ _).symm
  intro j hj
  rcases Nat.eq_zero_or_pos j with h | h
  · rw [h, hc0]
  · rcases Nat.lt_or_ge j (n - 1) with h' | h'
    · have := congrFun hv ⟨j - 1, by omega⟩
      simp only [Pi.zero_apply] at this
      rwa [show j - 1 + 1 = j by omega] at this
    · have : j = n - 1 := by omega
      rw [this, hcn]

end Splinepy.Greville
