import Verif.Spec.Spline
import Verif.Lemma.Tensor
import Verif.Lemma.Bernstein
import Verif.Lemma.KnotInsertion
import Mathlib.Data.Nat.Choose.Sum
import Mathlib.Algebra.Order.BigOperators.Group.List
import Mathlib.Data.List.GetD
import Mathlib.Tactic.Positivity

/-! Basis functions of splines on the closed domain: span, non-negativity, partition of unity. -/
namespace Splinepy.Spec
open Splinepy.Blossom Finset

set_option linter.unusedSectionVars false

variable {K : Type} [Field K] [LinearOrder K] [IsStrictOrderedRing K]

/-- blossom at a point inside of the closed span is non-negative -/
theorem bl_nonneg {t : ℕ → K} (ht : Monotone t) {μ : ℕ} {x : K} (h0 : t μ ≤ x) (h1 : x ≤ t (μ + 1)) (d j : ℕ) :
    0 ≤ bl t μ (fun _ => x) d j := by
  induction d generalizing j with
  | zero => simp only [bl]; split <;> simp
  | succ d ih =>
    rw [bl_succ]
    unfold R
    apply add_nonneg
    · by_cases h : bl t μ (fun _ => x) d j = 0
      · rw [h, mul_zero]
      · have hs := supp_bl t μ _ d j h
        have h2 := ht hs.1
        have h4 := ht (show j ≤ j + d + 1 by omega)
        exact mul_nonneg (div_nonneg (by linarith) (by linarith)) (ih j)
    · by_cases h : bl t μ (fun _ => x) d (j + 1) = 0
      · rw [h, mul_zero]
      · have hs := supp_bl t μ _ d _ h
        have h2 := ht (show μ + 1 ≤ j + d + 2 by omega)
        have h4 := ht (show j + 1 ≤ j + d + 2 by omega)
        exact mul_nonneg (div_nonneg (by linarith) (by linarith)) (ih _)

/-- the basis on the closed domain is the blossom of one non-empty span -/
theorem basisC_span {t : ℕ → K} (ht : Monotone t) {p n : ℕ} (hpn : t p < t n) {x : K} (h0 : t p ≤ x) (h1 : x ≤ t n) :
    ∃ μ, p ≤ μ ∧ μ < n ∧ t μ < t (μ + 1) ∧ t μ ≤ x ∧ x ≤ t (μ + 1) ∧ ∀ d j, basisC t n d j x = bl t μ (fun _ => x) d j := by
  have hpn' : p < n := by
    by_contra hc
    exact absurd hpn (not_lt.2 (ht (by omega)))
  obtain ⟨μ, hp, hn, hμ, hx0, hx1, hz⟩ : ∃ μ, p ≤ μ ∧ μ < n ∧ t μ < t (μ + 1) ∧ t μ ≤ x ∧ x ≤ t (μ + 1) ∧
      ∀ j, ((x ≠ t n ∧ t j ≤ x ∧ x < t (j + 1)) ∨ (x = t n ∧ t j < x ∧ x = t (j + 1))) ↔ j = μ := by
    rcases lt_or_eq_of_le h1 with hlt | heq
    · -- greatest index with t μ ≤ x
      obtain ⟨k, hk⟩ := Nat.exists_eq_add_of_le hpn'.le
      subst hk
      have : ∃ μ, p ≤ μ ∧ μ < p + k ∧ t μ ≤ x ∧ x < t (μ + 1) := by
        clear hpn hpn'
        induction k with
        | zero => exact absurd (lt_of_le_of_lt h0 hlt) (lt_irrefl _)
        | succ k ih =>
          by_cases hc : x < t (p + k)
          · obtain ⟨μ, a, b, c⟩ := ih hc.le hc
            exact ⟨μ, a, by omega, c⟩
          · exact ⟨p + k, by omega, by omega, not_lt.1 hc, hlt⟩
      obtain ⟨μ, a, b, c, e⟩ := this
      refine ⟨μ, a, b, lt_of_le_of_lt c e, c, e.le, fun j => ⟨?_, fun h => by subst h; exact Or.inl ⟨hlt.ne, c, e⟩⟩⟩
      rintro (h | h)
      · exact span_unique ht h.2 ⟨c, e⟩
      · exact absurd h.1 hlt.ne
    · -- last non-empty span
      obtain ⟨k, hk⟩ := Nat.exists_eq_add_of_le hpn'.le
      have : ∃ μ, p ≤ μ ∧ μ < p + k ∧ t μ < x ∧ t (μ + 1) = t (p + k) := by
        rw [hk] at hpn heq
        rw [heq]
        clear heq h1 hpn' hk h0 x
        induction k with
        | zero => exact absurd hpn (lt_irrefl _)
        | succ k ih =>
          by_cases hc : t (p + k) < t (p + (k + 1))
          · exact ⟨p + k, by omega, by omega, hc, rfl⟩
          · have he : t (p + k) = t (p + (k + 1)) := le_antisymm (ht (by omega)) (not_lt.1 hc)
            rw [← he] at hpn
            obtain ⟨μ, a, b, c, e⟩ := ih hpn
            exact ⟨μ, a, by omega, by rw [← he]; exact c, by rw [e, he]⟩
      obtain ⟨μ, a, b, c, e⟩ := this
      rw [← hk] at b e
      have e' : x = t (μ + 1) := by rw [heq, e]
      refine ⟨μ, a, b, by rw [← e']; exact c, c.le, e'.le, fun j => ⟨?_, fun h => by subst h; exact Or.inr ⟨heq, c, e'⟩⟩⟩
      rintro (h | h)
      · exact absurd heq h.1
      · by_contra hne
        rcases Nat.lt_or_gt_of_ne hne with h2 | h2
        · have := ht (show j + 1 ≤ μ by omega)
          linarith [h.2.2]
        · have := ht (show μ + 1 ≤ j by omega)
          linarith [h.2.1]
  refine ⟨μ, hp, hn, hμ, hx0, hx1, fun d => ?_⟩
  induction d with
  | zero =>
    intro j
    simp only [basisC, bl]
    by_cases h : j = μ
    · rw [if_pos ((hz j).2 h), if_pos h]
    · rw [if_neg (fun hc => h ((hz j).1 hc)), if_neg h]
  | succ d ih => intro j; simp only [basisC, bl_succ, R, ih]


theorem basisC_nonneg {t : ℕ → K} (ht : Monotone t) {p n : ℕ} (hpn : t p < t n) {x : K} (h0 : t p ≤ x) (h1 : x ≤ t n) (d j : ℕ) :
    0 ≤ basisC t n d j x := by
  obtain ⟨μ, _, _, _, a, b, e⟩ := basisC_span ht hpn h0 h1
  rw [e]
  exact bl_nonneg ht a b d j

theorem basisC_sum {t : ℕ → K} (ht : Monotone t) {p n : ℕ} (hpn : t p < t n) {x : K} (h0 : t p ≤ x) (h1 : x ≤ t n) :
    ∑ j ∈ range n, basisC t n p j x = 1 := by
  obtain ⟨μ, hp, hn, hμ, _, _, e⟩ := basisC_span ht hpn h0 h1
  rw [← bl_sum ht hμ (fun _ => x) p hp]
  symm
  rw [sum_congr rfl (fun j _ => e p j)]
  apply sum_subset
  · intro j hj; rw [mem_range] at *; omega
  · intro j _ hj
    rw [mem_range] at hj
    by_contra hc
    have := supp_bl t μ (fun _ => x) p j hc
    omega

/-- inside of the half-open domain nothing changes -/
theorem basisC_eq_basis {t : ℕ → K} {n : ℕ} {x : K} (h : x ≠ t n) (d j : ℕ) : basisC t n d j x = basis t d j x := by
  induction d generalizing j with
  | zero => simp [basisC, basis, h]
  | succ d ih => simp only [basisC, basis, ih]

theorem bernstein_sum (p : ℕ) (x : K) : ∑ j ∈ range (p + 1), bernstein p j 0 1 x = 1 := by
  have h := (add_pow x (1 - x) p).symm
  rw [show x + (1 - x) = 1 by ring, one_pow] at h
  refine Eq.trans ?_ h
  apply sum_congr rfl
  intro j _
  unfold bernstein
  simp only [sub_zero, div_one]
  ring

theorem bernstein_nonneg (p j : ℕ) {x : K} (h0 : 0 ≤ x) (h1 : x ≤ 1) : 0 ≤ bernstein p j 0 1 x := by
  unfold bernstein
  simp only [sub_zero, div_one]
  have : 0 ≤ 1 - x := by linarith
  positivity

namespace Direction

theorem basis_sum {d : Direction K} (hv : d.Valid) {x : K} (hx : d.Contains x) : ∑ j ∈ range d.size, d.basis x j = 1 := by
  obtain ⟨deg, knots⟩ := d
  cases knots with
  | none => exact bernstein_sum deg x
  | some kv =>
    obtain ⟨hs, _, hlt⟩ := hv kv rfl
    exact basisC_sum (KnotInsertion.knotSeq_monotone hs) hlt hx.1 hx.2

theorem basis_nonneg {d : Direction K} (hv : d.Valid) {x : K} (hx : d.Contains x) (j : ℕ) : 0 ≤ d.basis x j := by
  obtain ⟨deg, knots⟩ := d
  cases knots with
  | none => exact bernstein_nonneg deg j hx.1 hx.2
  | some kv =>
    obtain ⟨hs, _, hlt⟩ := hv kv rfl
    exact basisC_nonneg (KnotInsertion.knotSeq_monotone hs) hlt hx.1 hx.2 _ _

end Direction

omit [LinearOrder K] [IsStrictOrderedRing K] in
theorem list_sum_range (n : ℕ) (f : ℕ → K) : ((List.range n).map f).sum = ∑ j ∈ range n, f j := by
  induction n with
  | zero => simp
  | succ n ih => rw [List.range_succ, List.map_append, List.sum_append, ih, sum_range_succ]; simp

omit [LinearOrder K] [IsStrictOrderedRing K] in
/-- sum of all products of basis values -/
theorem basisProduct_sum (basis : List (ℕ → K)) (dims : List ℕ) (h : basis.length = dims.length) :
    ∑ i ∈ range dims.prod, basisProduct basis (digits dims i) = (List.zipWith (fun b n => ∑ j ∈ range n, b j) basis dims).prod := by
  induction dims generalizing basis with
  | nil =>
    have : basis = [] := List.length_eq_zero_iff.1 h
    subst this
    simp [basisProduct]
  | cons r rs ih =>
    cases basis with
    | nil => simp at h
    | cons b bs =>
      have hl : bs.length = rs.length := by simpa using h
      rw [List.zipWith_cons_cons, List.prod_cons, List.prod_cons, ← ih bs hl, ← list_sum_range, sum_range_mul, ← list_sum_range, ← list_sum_range,
        ← List.sum_map_mul_left]
      congr 1
      apply List.map_congr_left
      intro l _
      rw [← List.sum_map_mul_right]
      congr 1
      apply List.map_congr_left
      intro g hg
      have hg' := List.mem_range.1 hg
      have hr : 0 < r := by omega
      simp only [digits]
      rw [Nat.add_mul_mod_self_left, Nat.mod_eq_of_lt hg', Nat.add_mul_div_left _ _ hr, Nat.div_eq_of_lt hg', Nat.zero_add]
      simp [basisProduct]

theorem basisProduct_nonneg (basis : List (ℕ → K)) (cs : List ℕ) (h : ∀ b ∈ basis, ∀ j, 0 ≤ b j) : 0 ≤ basisProduct basis cs := by
  induction basis generalizing cs with
  | nil => simp [basisProduct]
  | cons b bs ih =>
    cases cs with
    | nil => simp [basisProduct]
    | cons c cs =>
      have : basisProduct (b :: bs) (c :: cs) = b c * basisProduct bs cs := by simp [basisProduct]
      rw [this]
      exact mul_nonneg (h b (by simp) c) (ih cs (fun b' hb => h b' (by simp [hb])))

omit [LinearOrder K] [IsStrictOrderedRing K] in
theorem tensorEval_eq_sum (basis : List (ℕ → K)) (dims : List ℕ) (c : List K) :
    tensorEval basis dims c = ∑ i ∈ range dims.prod, basisProduct basis (digits dims i) * c.getD i 0 := by
  unfold tensorEval
  rw [list_sum_range]

section
variable {P : Type*} {s : Index.Spline K P} {u : List K}

theorem basisValues_length (hu : InDomain s u) : (basisValues s u).length = (netSize s).length := by
  unfold basisValues netSize
  rw [List.length_zipWith, List.length_map, hu.length_eq, Nat.min_self]

theorem basisValues_mem {b : ℕ → K} (hb : b ∈ basisValues s u) (hu : InDomain s u) :
    ∃ d ∈ directions s, ∃ x, d.Contains x ∧ b = fun j => d.basis x j := by
  unfold basisValues at hb
  unfold InDomain at hu
  generalize directions s = ds at hb hu ⊢
  induction hu with
  | nil => simp at hb
  | cons h _ ih =>
    rw [List.zipWith_cons_cons, List.mem_cons] at hb
    rcases hb with rfl | hb
    · exact ⟨_, by simp, _, h, rfl⟩
    · obtain ⟨d, hd, x, hx⟩ := ih hb
      exact ⟨d, by simp [hd], x, hx⟩

theorem basisValues_nonneg (hd : ∀ d ∈ directions s, d.Valid) (hu : InDomain s u) : ∀ b ∈ basisValues s u, ∀ j, 0 ≤ b j := by
  intro b hb j
  obtain ⟨d, hm, x, hx, rfl⟩ := basisValues_mem hb hu
  exact Direction.basis_nonneg (hd d hm) hx j

/-- partition of unity of the tensor product basis -/
theorem basisValues_sum (hd : ∀ d ∈ directions s, d.Valid) (hu : InDomain s u) :
    ∑ i ∈ range (netSize s).prod, basisProduct (basisValues s u) (digits (netSize s) i) = 1 := by
  rw [basisProduct_sum _ _ (basisValues_length hu)]
  unfold basisValues netSize
  unfold InDomain at hu
  generalize directions s = ds at hd hu ⊢
  revert hd
  induction hu with
  | nil => intro; simp
  | cons h _ ih =>
    intro hd
    rw [List.zipWith_cons_cons, List.map_cons, List.zipWith_cons_cons, List.prod_cons, ih (fun d hm => hd d (by simp [hm])),
      Direction.basis_sum (hd _ (by simp)) h, one_mul]

theorem tensorEval_pos (hd : ∀ d ∈ directions s, d.Valid) (hu : InDomain s u) (ws : List K) (hl : ws.length = (netSize s).prod)
    (hw : ∀ w ∈ ws, 0 < w) : 0 < tensorEval (basisValues s u) (netSize s) ws := by
  rw [tensorEval_eq_sum]
  have hn : ∀ i ∈ range (netSize s).prod, 0 ≤ basisProduct (basisValues s u) (digits (netSize s) i) * ws.getD i 0 := by
    intro i hi
    rw [mem_range] at hi
    rw [List.getD_eq_getElem _ _ (by omega)]
    exact mul_nonneg (basisProduct_nonneg _ _ (basisValues_nonneg hd hu)) (hw _ (List.getElem_mem _)).le
  apply lt_of_le_of_ne (sum_nonneg hn)
  intro h0
  have hz := (sum_eq_zero_iff_of_nonneg hn).1 h0.symm
  have h1 := basisValues_sum hd hu
  rw [sum_eq_zero] at h1
  · exact zero_ne_one h1
  · intro i hi
    have h2 := hz i hi
    rw [mem_range] at hi
    rw [List.getD_eq_getElem _ _ (by omega)] at h2
    rcases mul_eq_zero.1 h2 with h3 | h3
    · exact h3
    · exact absurd h3 (hw _ (List.getElem_mem _)).ne'

end

end Splinepy.Spec

namespace Splinepy.Spec
open Splinepy.Blossom Finset

set_option linter.unusedSectionVars false

section
variable {K : Type} [Field K] [LinearOrder K] [IsStrictOrderedRing K] {P : Type*}

/-- weight of control point `i` -/
def weightAt (s : Index.Spline K P) (i : ℕ) : K :=
  match s.weights with
  | none => 1
  | some ws => ws.getD i 0

/-- weighted sum of coefficients -/
def num (s : Index.Spline K P) (c : ℕ → K) (u : List K) : K :=
  ∑ i ∈ range (netSize s).prod, basisProduct (basisValues s u) (digits (netSize s) i) * (weightAt s i * c i)

theorem den_pos {s : Index.Spline K P} {u : List K} (hs : ValidSpline s) (hu : InDomain s u) : 0 < num s (fun _ => 1) u := by
  unfold num weightAt
  cases h : s.weights with
  | none => simp only [mul_one]; rw [basisValues_sum hs.dirs hu]; exact zero_lt_one
  | some ws =>
    have hw := hs.weights ws h
    have := tensorEval_pos hs.dirs hu ws (by rw [hw.1, hs.net]) hw.2
    rw [tensorEval_eq_sum] at this
    simpa using this

theorem value_eq {s : Index.Spline K P} {u : List K} (hs : ValidSpline s) (hu : InDomain s u) (c : ℕ → K) :
    value s c u = num s c u / num s (fun _ => 1) u := by
  unfold value
  have e : ∀ F : ℕ → K, tensorEval (basisValues s u) (netSize s) ((List.range (netSize s).prod).map F) =
      ∑ i ∈ range (netSize s).prod, basisProduct (basisValues s u) (digits (netSize s) i) * F i := by
    intro F
    rw [tensorEval_eq_sum]
    apply sum_congr rfl
    intro i hi
    rw [mem_range] at hi
    rw [List.getD_eq_getElem _ _ (by simpa using hi), List.getElem_map, List.getElem_range]
  cases h : s.weights with
  | none =>
    simp only [e]
    have h1 : num s (fun _ => 1) u = 1 := by
      unfold num weightAt
      rw [h]
      simp only [mul_one]
      exact basisValues_sum hs.dirs hu
    rw [h1, div_one]
    unfold num weightAt
    rw [h]
    simp
  | some ws =>
    simp only [e, tensorEval_eq_sum]
    unfold num weightAt
    rw [h]
    simp

/-- affine combinations of coefficients -/
theorem value_affine {s : Index.Spline K P} {u : List K} (hs : ValidSpline s) (hu : InDomain s u) (a b : K) (c c' : ℕ → K)
    (h : ∀ i < (netSize s).prod, c' i = a * c i + b) : value s c' u = a * value s c u + b := by
  have hd := (den_pos hs hu).ne'
  rw [value_eq hs hu, value_eq hs hu]
  have hn : num s c' u = a * num s c u + b * num s (fun _ => 1) u := by
    unfold num
    rw [mul_sum, mul_sum, ← sum_add_distrib]
    apply sum_congr rfl
    intro i hi
    rw [h i (mem_range.1 hi)]
    ring
  rw [hn]
  field_simp

theorem value_congr {s : Index.Spline K P} {u : List K} (c c' : ℕ → K) (h : ∀ i < (netSize s).prod, c' i = c i) :
    value s c' u = value s c u := by
  unfold value
  have e1 : (List.range (netSize s).prod).map c' = (List.range (netSize s).prod).map c :=
    List.map_congr_left (fun i hi => h i (List.mem_range.1 hi))
  have e2 : ∀ ws : List K, (List.range (netSize s).prod).map (fun i => ws.getD i 0 * c' i) =
      (List.range (netSize s).prod).map (fun i => ws.getD i 0 * c i) := fun ws =>
    List.map_congr_left (fun i hi => by rw [h i (List.mem_range.1 hi)])
  cases s.weights with
  | none => simp only [e1]
  | some ws => simp only [e2]

/-- sums over a net with one more direction -/
theorem sum_append (B : List (ℕ → K)) (b : ℕ → K) (dims : List ℕ) (n : ℕ) (hb : B.length = dims.length) (F : ℕ → K) :
    ∑ i ∈ range (dims ++ [n]).prod, basisProduct (B ++ [b]) (digits (dims ++ [n]) i) * F i =
      ∑ l ∈ range n, b l * ∑ g ∈ range dims.prod, basisProduct B (digits dims g) * F (g + dims.prod * l) := by
  rw [List.prod_append, List.prod_singleton, ← list_sum_range, sum_range_mul, ← list_sum_range]
  congr 1
  apply List.map_congr_left
  intro l hl
  rw [list_sum_range, mul_sum]
  apply sum_congr rfl
  intro g hg
  have hl' := List.mem_range.1 hl
  have hg' := mem_range.1 hg
  rw [digits_append dims n g l hg' hl', basisProduct_append _ _ _ _ (by rw [digits_length]; exact hb)]
  ring

/-- directions of a spline with one more direction -/
theorem directions_append (s s' : Index.Spline K P) (d : Direction K) (hk : ∀ kvs, s.knotVectors = some kvs → kvs.length = s.degrees.length)
    (hd : s'.degrees = s.degrees ++ [d.deg])
    (hkv : (s.knotVectors = none ∧ s'.knotVectors = none ∧ d.knots = none) ∨
      ∃ kvs kv, s.knotVectors = some kvs ∧ s'.knotVectors = some (kvs ++ [kv]) ∧ d.knots = some kv) :
    directions s' = directions s ++ [d] := by
  obtain ⟨deg, knots⟩ := d
  rcases hkv with ⟨h1, h2, h3⟩ | ⟨kvs, kv, h1, h2, h3⟩
  · simp only at h3 hd
    subst h3
    simp [directions, h1, h2, hd]
  · simp only at h3 hd
    subst h3
    simp only [directions, h1, h2, hd]
    rw [List.zipWith_append (hk kvs h1).symm]
    rfl

theorem inDomain_append (s s' : Index.Spline K P) (d : Direction K) (h : directions s' = directions s ++ [d]) {u : List K} {t : K}
    (hu : InDomain s u) (ht : d.Contains t) : InDomain s' (u ++ [t]) := by
  unfold InDomain at *
  rw [h]
  exact List.rel_append hu (.cons ht .nil)

theorem basisValues_append (s s' : Index.Spline K P) (d : Direction K) (h : directions s' = directions s ++ [d]) {u : List K} {t : K}
    (hu : InDomain s u) : basisValues s' (u ++ [t]) = basisValues s u ++ [fun j => d.basis t j] := by
  unfold basisValues
  rw [h, List.zipWith_append hu.length_eq]
  rfl

theorem netSize_append (s s' : Index.Spline K P) (d : Direction K) (h : directions s' = directions s ++ [d]) :
    netSize s' = netSize s ++ [d.size] := by
  unfold netSize
  rw [h, List.map_append]
  rfl

/-- weighted sums of a spline with one more direction -/
theorem num_append (s s' : Index.Spline K P) (d : Direction K) (h : directions s' = directions s ++ [d]) {u : List K} {t : K}
    (hu : InDomain s u) (c : ℕ → K) : num s' c (u ++ [t]) =
      ∑ l ∈ range d.size, d.basis t l * ∑ g ∈ range (netSize s).prod, basisProduct (basisValues s u) (digits (netSize s) g) *
        (weightAt s' (g + (netSize s).prod * l) * c (g + (netSize s).prod * l)) := by
  unfold num
  rw [basisValues_append s s' d h hu, netSize_append s s' d h, sum_append _ _ _ _ (basisValues_length hu)]

/-- a knot vector with the two ends only gives the Bernstein polynomials of the interval -/
theorem basisC_bernstein {p : ℕ} {a b x : K} (hab : a < b) (h0 : a ≤ x) (h1 : x ≤ b) (t : ℕ → K) (ht : Monotone t)
    (hta : ∀ i ≤ p, t i = a) (htb : ∀ i, p + 1 ≤ i → i ≤ 2 * p + 1 → t i = b) (q : ℕ) (hq : q ≤ p) :
    basisC t (p + 1) p q x = bernstein p q a b x := by
  have hb1 := htb (p + 1) (by omega) (by omega)
  have ha1 := hta p (by omega)
  obtain ⟨μ, hp, hn, _, _, _, e⟩ := basisC_span ht (p := p) (n := p + 1) (x := x) (by rw [ha1, hb1]; exact hab) (by rw [ha1]; exact h0)
    (by rw [hb1]; exact h1)
  have : μ = p := by omega
  subst this
  rw [e]
  have := bl_bernstein (s := t) (μ := μ) (p := μ) (u := a) (v := b) (x := x) le_rfl (fun i _ hi => hta i hi)
    (fun i h1 h2 => htb i h1 (by omega)) μ le_rfl q hq
  simpa using this

end

end Splinepy.Spec
