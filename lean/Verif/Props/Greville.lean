import Verif.Model.Greville
import Verif.Lemma.Blossom
import Verif.Lemma.KnotInsertion
import Mathlib.Tactic.Linarith
import Mathlib.Tactic.Ring
import Mathlib.Tactic.FieldSimp
import Mathlib.Tactic.IntervalCases
import Mathlib.Algebra.Order.Field.Rat

/-!
C27: Greville abscissae.
-/
set_option linter.unusedSectionVars false

namespace Splinepy.Greville
open Finset

variable {K : Type} [Field K] [LinearOrder K] [IsStrictOrderedRing K]

/-! ### Specification -/

/-- a knot vector of a spline of degree `p`: non-decreasing, enough knots (what splinepy accepts) -/
structure Spec.IsKnotVector (kv : List K) (p : ℕ) : Prop where
  sorted : kv.Pairwise (· ≤ ·)
  degree : 1 ≤ p
  size : 2 * (p + 1) ≤ kv.length

/-- the first `p + 1` knots agree, and so do the last -/
def Spec.Clamped (kv : List K) (p : ℕ) : Prop :=
  (∀ i ≤ p, kv.getD i 0 = kv.getD p 0) ∧ (∀ i, kv.length - p - 1 ≤ i → i < kv.length → kv.getD i 0 = kv.getD (kv.length - p - 1) 0)

/-! ### the means -/

theorem getD_mono {kv : List K} (h : kv.Pairwise (· ≤ ·)) {i j : ℕ} (hij : i ≤ j) (hj : j < kv.length) : kv.getD i 0 ≤ kv.getD j 0 := by
  rw [List.getD_eq_getElem?_getD, List.getD_eq_getElem?_getD, List.getElem?_eq_getElem hj, List.getElem?_eq_getElem (by omega)]
  rcases Nat.lt_or_eq_of_le hij with hlt | rfl
  · exact List.pairwise_iff_getElem.1 h i j (by omega) hj hlt
  · exact le_refl _

theorem abscissa_eq (kv : List K) (p j : ℕ) : abscissa kv p j = (∑ k ∈ range p, kv.getD (k + j + 1) 0) / (p : K) := by
  unfold abscissa
  have e : ((List.range p).map (fun (k : ℕ) => kv.getD (k + j + 1) 0)).sum = ∑ k ∈ range p, kv.getD (k + j + 1) 0 := by
    induction p with
    | zero => rfl
    | succ p ih => rw [List.range_succ, List.map_append, List.sum_append, ih, sum_range_succ]; simp
  rw [e, one_div, div_eq_inv_mul]

theorem abscissa_succ_sub (kv : List K) (p j : ℕ) : abscissa kv p (j + 1) - abscissa kv p j = (kv.getD (j + p + 1) 0 - kv.getD (j + 1) 0) / (p : K) := by
  rw [abscissa_eq, abscissa_eq, ← sub_div]
  congr 1
  have h1 := sum_range_succ (fun k => kv.getD (k + j + 1) 0) p
  have h2 := sum_range_succ' (fun k => kv.getD (k + j + 1) 0) p
  have e : ∑ k ∈ range p, kv.getD (k + (j + 1) + 1) 0 = ∑ k ∈ range p, kv.getD (k + 1 + j + 1) 0 := by
    apply sum_congr rfl; intro k _; congr 1; omega
  rw [e]
  rw [show j + p + 1 = p + j + 1 by omega, show j + 1 = 0 + j + 1 by omega]
  linarith

theorem abscissae_length (kv : List K) (p : ℕ) : (abscissae kv p).length = kv.length - p - 1 := by unfold abscissae; simp

theorem abscissae_getD (kv : List K) (p j : ℕ) (hj : j < kv.length - p - 1) : (abscissae kv p).getD j 0 = abscissa kv p j := by
  unfold abscissae
  rw [List.getD_eq_getElem?_getD, List.getElem?_map, List.getElem?_range hj]; rfl

theorem abscissa_step_le {kv : List K} {p : ℕ} (h : Spec.IsKnotVector kv p) (j : ℕ) (hj : j + 1 < kv.length - p - 1) : abscissa kv p j ≤ abscissa kv p (j + 1) := by
  have := abscissa_succ_sub kv p j
  have h1 := getD_mono h.sorted (show j + 1 ≤ j + p + 1 by omega) (by omega)
  have h2 : (0 : K) < p := by exact_mod_cast h.degree
  have h3 : 0 ≤ (kv.getD (j + p + 1) 0 - kv.getD (j + 1) 0) / (p : K) := div_nonneg (by linarith) h2.le
  linarith

/-! ### the filter -/

theorem getD_set (g : List K) (i k : ℕ) (v : K) (hi : i < g.length) : (g.set i v).getD k 0 = if k = i then v else g.getD k 0 := by
  rw [List.getD_eq_getElem?_getD, List.getElem?_set, List.getD_eq_getElem?_getD]
  by_cases h : i = k
  · subst h; simp [hi]
  · rw [if_neg h, if_neg (fun e => h e.symm)]

/-- invariant of the filter loop before iteration `j` -/
structure Inv (tol : K) (g : List K) (j : ℕ) (s : List K × K) : Prop where
  length : s.1.length = g.length
  mono : ∀ i, i + 1 < g.length → s.1.getD i 0 ≤ s.1.getD (i + 1) 0
  first : s.1.getD 0 0 = g.getD 0 0
  tail : ∀ i, j ≤ i → s.1.getD i 0 = g.getD i 0
  prev : (s.2 = g.getD (j - 1) 0 ∧ s.1.getD (j - 1) 0 = g.getD (j - 1) 0) ∨
    (s.2 ≤ g.getD (j - 1) 0 ∧ g.getD (j - 1) 0 < s.2 + tol ∧ s.1.getD (j - 1) 0 = (g.getD (j - 1) 0 + g.getD j 0) / 2)
  strict : g.getD 0 0 < g.getD 1 0 → ∀ i, i + 1 ≤ j - 1 → s.1.getD i 0 < s.1.getD (i + 1) 0

theorem inv_step {tol : K} (htol : 0 < tol) {g : List K} (hg : ∀ i, i + 1 < g.length → g.getD i 0 ≤ g.getD (i + 1) 0) {j : ℕ} (hj2 : 2 ≤ j) (hjn : j + 1 < g.length)
    {s : List K × K} (H : Inv tol g j s) : Inv tol g (j + 1) (filterStep tol s j) := by
  obtain ⟨f, prev⟩ := s
  have hlen : f.length = g.length := H.length
  have hfj : f.getD j 0 = g.getD j 0 := H.tail j (le_refl _)
  have hfj1 : f.getD (j + 1) 0 = g.getD (j + 1) 0 := H.tail (j + 1) (by omega)
  have hgj := hg (j - 1) (by omega)
  rw [show j - 1 + 1 = j by omega] at hgj
  have hgj1 := hg j hjn
  have hprev : prev ≤ g.getD j 0 := by
    rcases H.prev with ⟨h, _⟩ | ⟨h, _, _⟩
    · simp only at h; rw [h]; exact hgj
    · exact le_trans h hgj
  have m1 := H.mono (j - 2) (by omega)
  have m2 := H.mono (j - 1) (by omega)
  simp only [show j - 2 + 1 = j - 1 by omega, show j - 1 + 1 = j by omega] at m1 m2
  rw [hfj] at m2
  unfold filterStep
  simp only
  by_cases hit : abs (prev - f.getD j 0) < tol
  · rw [if_pos hit, hfj, hfj1]
    have hget : ∀ k, ((f.set (j - 1) ((f.getD (j - 2) 0 + f.getD (j - 1) 0) / 2)).set j ((g.getD j 0 + g.getD (j + 1) 0) / 2)).getD k 0
        = if k = j then (g.getD j 0 + g.getD (j + 1) 0) / 2 else if k = j - 1 then (f.getD (j - 2) 0 + f.getD (j - 1) 0) / 2 else f.getD k 0 := by
      intro k
      rw [getD_set _ _ _ _ (by rw [List.length_set]; omega), getD_set _ _ _ _ (by omega)]
    refine ⟨?_, ?_, ?_, ?_, ?_, ?_⟩
    · simpa using hlen
    · intro i hi
      simp only
      rw [hget, hget]
      by_cases h1 : i = j
      · subst h1
        rw [if_pos rfl, if_neg (by omega), if_neg (by omega), hfj1]; linarith
      · rw [if_neg h1]
        by_cases h2 : i = j - 1
        · rw [if_pos h2, if_pos (by omega)]; linarith
        · rw [if_neg h2, if_neg (by omega)]
          by_cases h3 : i + 1 = j - 1
          · rw [if_pos h3, show i = j - 2 by omega]; linarith
          · rw [if_neg h3]; exact H.mono i hi
    · simp only
      rw [hget, if_neg (by omega), if_neg (by omega)]; exact H.first
    · intro i hi
      simp only
      rw [hget, if_neg (by omega), if_neg (by omega)]; exact H.tail i (by omega)
    · right
      simp only [show j + 1 - 1 = j by omega]
      refine ⟨hprev, ?_, ?_⟩
      · have := abs_lt.1 hit; rw [hfj] at this; linarith [this.1]
      · rw [hget, if_pos rfl]
    · intro h0 i hi
      have hs := H.strict h0
      simp only at hs ⊢
      have s1 := hs (j - 2) (by omega)
      rw [show j - 2 + 1 = j - 1 by omega] at s1
      rw [hget, hget, if_neg (by omega : ¬ i = j)]
      by_cases h2 : i = j - 1
      · rw [if_pos h2, if_pos (by omega)]; linarith
      · rw [if_neg h2, if_neg (by omega)]
        by_cases h3 : i + 1 = j - 1
        · rw [if_pos h3, show i = j - 2 by omega]; linarith
        · rw [if_neg h3]; exact hs i (by omega)
  · rw [if_neg hit]
    have hge : tol ≤ g.getD j 0 - prev := by
      rw [hfj, abs_sub_comm, abs_of_nonneg (by linarith)] at hit
      linarith
    refine ⟨hlen, H.mono, H.first, fun i hi => H.tail i (by omega), Or.inl ⟨?_, ?_⟩, ?_⟩
    · simp only [show j + 1 - 1 = j by omega]; exact hfj
    · simp only [show j + 1 - 1 = j by omega]; exact hfj
    · intro h0 i hi
      by_cases h1 : i + 1 ≤ j - 1
      · exact H.strict h0 i h1
      · have hij : i = j - 1 := by omega
        subst hij
        simp only [show j - 1 + 1 = j by omega]
        rw [hfj]
        rcases H.prev with ⟨h, h'⟩ | ⟨h, h', h''⟩
        · simp only at h h'; rw [h', ← h]; linarith
        · simp only at h h' h''; rw [h'']; linarith

theorem inv_loop {tol : K} (htol : 0 < tol) {g : List K} (hg : ∀ i, i + 1 < g.length → g.getD i 0 ≤ g.getD (i + 1) 0) (n : ℕ) (j : ℕ) (hj2 : 2 ≤ j) (hjn : j + n + 1 ≤ g.length)
    {s : List K × K} (H : Inv tol g j s) : Inv tol g (j + n) ((List.range' j n).foldl (filterStep tol) s) := by
  induction n generalizing j s with
  | zero => exact H
  | succ n ih =>
    rw [List.range'_succ, List.foldl_cons]
    have := ih (j + 1) (by omega) (by omega) (inv_step htol hg hj2 (by omega) H)
    rwa [show j + (n + 1) = j + 1 + n by omega]

theorem inv_init {tol : K} {g : List K} (hg : ∀ i, i + 1 < g.length → g.getD i 0 ≤ g.getD (i + 1) 0) : Inv tol g 2 (g, g.getD 1 0) :=
  ⟨rfl, hg, rfl, fun _ _ => rfl, Or.inl ⟨rfl, rfl⟩, fun h i hi => by
    have : i = 0 := by omega
    subst this; exact h⟩

/-- the filter keeps length, order and both ends, and separates all entries if the two first and the two last entries differ -/
theorem filter_spec {tol : K} {g : List K} (hn : 2 ≤ g.length) (hg : ∀ i, i + 1 < g.length → g.getD i 0 ≤ g.getD (i + 1) 0) :
    (filter tol g).length = g.length ∧ (∀ i, i + 1 < g.length → (filter tol g).getD i 0 ≤ (filter tol g).getD (i + 1) 0) ∧
    (filter tol g).getD 0 0 = g.getD 0 0 ∧ (filter tol g).getD (g.length - 1) 0 = g.getD (g.length - 1) 0 ∧
    (0 < tol → g.getD 0 0 < g.getD 1 0 → g.getD (g.length - 2) 0 < g.getD (g.length - 1) 0 →
      ∀ i, i + 1 < g.length → (filter tol g).getD i 0 < (filter tol g).getD (i + 1) 0) := by
  unfold filter
  by_cases htol : 0 < tol
  · rw [if_pos htol]
    by_cases h3 : 3 ≤ g.length
    · have H := inv_loop htol hg (g.length - 3) 2 (le_refl _) (by omega) (inv_init (tol := tol) hg)
      rw [show 2 + (g.length - 3) = g.length - 1 by omega] at H
      refine ⟨H.length, H.mono, H.first, H.tail _ (le_refl _), fun _ h0 h1 i hi => ?_⟩
      by_cases hi2 : i + 1 ≤ g.length - 1 - 1
      · exact H.strict h0 i hi2
      · have e : i = g.length - 2 := by omega
        subst e
        rw [show g.length - 2 + 1 = g.length - 1 by omega, H.tail _ (le_refl _)]
        have hp := H.prev
        rw [show g.length - 1 - 1 = g.length - 2 by omega] at hp
        rcases hp with ⟨_, h'⟩ | ⟨_, _, h''⟩
        · rw [h']; exact h1
        · rw [h'']; linarith
    · have e : g.length = 2 := by omega
      rw [show g.length - 3 = 0 by omega]
      refine ⟨rfl, hg, rfl, rfl, fun _ h0 _ i hi => ?_⟩
      have : i = 0 := by omega
      subst this; exact h0
  · rw [if_neg htol]
    exact ⟨rfl, hg, rfl, rfl, fun h => absurd h htol⟩

theorem pairwise_of_steps {R : K → K → Prop} (htrans : ∀ a b c, R a b → R b c → R a c) {g : List K} (h : ∀ i, i + 1 < g.length → R (g.getD i 0) (g.getD (i + 1) 0)) : g.Pairwise R := by
  have key : ∀ d i, i + (d + 1) < g.length → R (g.getD i 0) (g.getD (i + (d + 1)) 0) := by
    intro d
    induction d with
    | zero => intro i hi; exact h i hi
    | succ d ih => intro i hi; exact htrans _ _ _ (ih i (by omega)) (h (i + (d + 1)) (by omega))
  rw [List.pairwise_iff_getElem]
  intro i j hi hj hij
  have := key (j - i - 1) i (by omega)
  rw [show i + (j - i - 1 + 1) = j by omega] at this
  rwa [List.getD_eq_getElem?_getD, List.getD_eq_getElem?_getD, List.getElem?_eq_getElem hi, List.getElem?_eq_getElem hj] at this

theorem abscissae_steps {kv : List K} {p : ℕ} (h : Spec.IsKnotVector kv p) : ∀ i, i + 1 < (abscissae kv p).length → (abscissae kv p).getD i 0 ≤ (abscissae kv p).getD (i + 1) 0 := by
  intro i hi
  rw [abscissae_length] at hi
  rw [abscissae_getD _ _ _ (by omega), abscissae_getD _ _ _ hi]
  exact abscissa_step_le h i hi

/-! ### C27 -/

/-- C27: for every knot vector, degree and tolerance (also those that enable the duplicate filter) there is one abscissa per control point and they are
non-decreasing. -/
theorem greville_sorted (kv : List K) (p : ℕ) (tol : K) (h : Spec.IsKnotVector kv p) :
    (greville kv p tol).length = kv.length - p - 1 ∧ (greville kv p tol).Pairwise (· ≤ ·) := by
  have hs := h.size
  obtain ⟨h1, h2, _, _, _⟩ := filter_spec (tol := tol) (by rw [abscissae_length]; have := h.degree; omega) (abscissae_steps h)
  refine ⟨by unfold greville; rw [h1, abscissae_length], ?_⟩
  apply pairwise_of_steps (R := fun a b => a ≤ b) (fun a b c => le_trans)
  intro i hi
  unfold greville at hi ⊢
  rw [h1] at hi
  exact h2 i hi

theorem abscissa_first {kv : List K} {p : ℕ} (h : Spec.IsKnotVector kv p) (hc : Spec.Clamped kv p) : abscissa kv p 0 = kv.getD p 0 := by
  rw [abscissa_eq]
  have : ∑ k ∈ range p, kv.getD (k + 0 + 1) 0 = ∑ k ∈ range p, kv.getD p 0 := by
    apply sum_congr rfl
    intro k hk
    rw [mem_range] at hk
    exact hc.1 _ (by omega)
  rw [this, sum_const, card_range, nsmul_eq_mul]
  have h2 : (p : K) ≠ 0 := by have := h.degree; exact_mod_cast (by omega : p ≠ 0)
  field_simp

theorem abscissa_last {kv : List K} {p : ℕ} (h : Spec.IsKnotVector kv p) (hc : Spec.Clamped kv p) : abscissa kv p (kv.length - p - 1 - 1) = kv.getD (kv.length - p - 1) 0 := by
  have hs := h.size
  rw [abscissa_eq]
  have : ∑ k ∈ range p, kv.getD (k + (kv.length - p - 1 - 1) + 1) 0 = ∑ k ∈ range p, kv.getD (kv.length - p - 1) 0 := by
    apply sum_congr rfl
    intro k hk
    rw [mem_range] at hk
    exact hc.2 _ (by omega) (by omega)
  rw [this, sum_const, card_range, nsmul_eq_mul]
  have h2 : (p : K) ≠ 0 := by have := h.degree; exact_mod_cast (by omega : p ≠ 0)
  field_simp

/-- C27: for clamped knot vectors, the first and the last abscissa are the parametric bounds, and all lie within them; with and without the duplicate filter. -/
theorem greville_bounds (kv : List K) (p : ℕ) (tol : K) (h : Spec.IsKnotVector kv p) (hc : Spec.Clamped kv p) :
    (greville kv p tol).head? = some (bounds kv p).1 ∧ (greville kv p tol).getLast? = some (bounds kv p).2 ∧
    ∀ x ∈ greville kv p tol, (bounds kv p).1 ≤ x ∧ x ≤ (bounds kv p).2 := by
  have hs := h.size
  have hd := h.degree
  obtain ⟨h1, h2, h3, h4, _⟩ := filter_spec (tol := tol) (by rw [abscissae_length]; omega) (abscissae_steps h)
  obtain ⟨hl, hp⟩ := greville_sorted kv p tol h
  have hne : 0 < (greville kv p tol).length := by omega
  have e0 : (greville kv p tol).getD 0 0 = (bounds kv p).1 := by
    unfold greville; rw [h3, abscissae_getD _ _ _ (by omega), abscissa_first h hc]; rfl
  have e1 : (greville kv p tol).getD (kv.length - p - 1 - 1) 0 = (bounds kv p).2 := by
    rw [abscissae_length] at h4
    unfold greville; rw [h4, abscissae_getD _ _ _ (by omega), abscissa_last h hc]; rfl
  refine ⟨?_, ?_, ?_⟩
  · rw [← e0, List.head?_eq_getElem?, List.getD_eq_getElem?_getD, List.getElem?_eq_getElem hne]; rfl
  · rw [← e1, List.getLast?_eq_getElem?, List.getD_eq_getElem?_getD, hl, List.getElem?_eq_getElem (by omega)]; rfl
  · intro x hx
    obtain ⟨i, hi, rfl⟩ := List.mem_iff_getElem.1 hx
    have hx' : (greville kv p tol)[i] = (greville kv p tol).getD i 0 := by
      rw [List.getD_eq_getElem?_getD, List.getElem?_eq_getElem hi]; rfl
    rw [hx', ← e0, ← e1]
    exact ⟨getD_mono hp (Nat.zero_le _) hi, getD_mono hp (by omega) (by omega)⟩

/-- C27, duplicates: with a positive tolerance all abscissae are different, whatever the multiplicities of the inner knots are, as long as the first and the last
knot do not appear more than `p + 1` times. -/
theorem greville_distinct (kv : List K) (p : ℕ) (tol : K) (h : Spec.IsKnotVector kv p) (htol : 0 < tol) (hfirst : kv.getD 1 0 < kv.getD (p + 1) 0)
    (hlast : kv.getD (kv.length - p - 2) 0 < kv.getD (kv.length - 2) 0) : (greville kv p tol).Pairwise (· < ·) := by
  have hs := h.size
  have hd := h.degree
  have hpK : (0 : K) < p := by exact_mod_cast hd
  obtain ⟨h1, _, _, _, h5⟩ := filter_spec (tol := tol) (by rw [abscissae_length]; omega) (abscissae_steps h)
  rw [abscissae_length] at h5 h1
  have a1 := abscissa_succ_sub kv p 0
  have a2 := abscissa_succ_sub kv p (kv.length - p - 1 - 2)
  rw [show kv.length - p - 1 - 2 + 1 = kv.length - p - 1 - 1 by omega] at a2
  have b1 : 0 < (kv.getD (0 + p + 1) 0 - kv.getD (0 + 1) 0) / (p : K) := div_pos (by rw [Nat.zero_add]; linarith) hpK
  have b2 : 0 < (kv.getD (kv.length - p - 1 - 2 + p + 1) 0 - kv.getD (kv.length - p - 1 - 1) 0) / (p : K) :=
    div_pos (by rw [show kv.length - p - 1 - 2 + p + 1 = kv.length - 2 by omega, show kv.length - p - 1 - 1 = kv.length - p - 2 by omega]; linarith) hpK
  have h6 := h5 htol (by rw [abscissae_getD _ _ _ (by omega), abscissae_getD _ _ _ (by omega)]; rw [Nat.zero_add] at a1; linarith)
    (by rw [abscissae_getD _ _ _ (by omega), abscissae_getD _ _ _ (by omega)]; linarith)
  apply pairwise_of_steps (R := fun a b => a < b) (fun a b c => lt_trans)
  intro i hi
  unfold greville at hi ⊢
  rw [h1] at hi
  exact h6 i hi

/-- the sums of knots reproduce the evaluation points -/
theorem bl_knot_sums {t : ℕ → K} (ht : Monotone t) {μ : ℕ} (hμ : t μ < t (μ + 1)) (y : ℕ → K) (d : ℕ) (hd : d ≤ μ) :
    ∑ j ∈ range (μ + 1), (∑ k ∈ range d, t (k + j + 1)) * Blossom.bl t μ y d j = ∑ k ∈ range d, y k := by
  induction d with
  | zero => simp
  | succ d ih =>
    have ih' := ih (by omega)
    have hone := Blossom.bl_sum ht hμ y d (by omega)
    have hsupp := Blossom.supp_bl t μ y d
    set v := Blossom.bl t μ y d with hv
    have h0 : v 0 = 0 := by by_contra hc; have := hsupp 0 hc; omega
    have hl : v (μ + 1) = 0 := by by_contra hc; have := hsupp _ hc; omega
    rw [Blossom.bl_succ, ← hv]
    unfold Blossom.R
    simp only [mul_add]
    rw [sum_add_distrib, sum_range_succ (fun j => (∑ k ∈ range (d + 1), t (k + j + 1)) * ((t (j + d + 2) - y d) / (t (j + d + 2) - t (j + 1)) * v (j + 1))), hl, mul_zero, mul_zero,
      add_zero, sum_range_succ' (fun j => (∑ k ∈ range (d + 1), t (k + j + 1)) * ((y d - t j) / (t (j + d + 1) - t j) * v j)), h0, mul_zero, mul_zero, add_zero, ← sum_add_distrib]
    rw [sum_range_succ (fun k => y k) d, ← ih', sum_range_succ' (fun j => (∑ k ∈ range d, t (k + j + 1)) * v j), h0, mul_zero, add_zero]
    have hone' : y d = ∑ j ∈ range μ, y d * v (j + 1) := by
      rw [← mul_sum]
      rw [sum_range_succ' v, h0, add_zero] at hone
      rw [hone, mul_one]
    conv_rhs => rw [hone', ← sum_add_distrib]
    apply sum_congr rfl
    intro j hj
    rw [mem_range] at hj
    by_cases hz : v (j + 1) = 0
    · rw [hz]; ring
    · have hs := hsupp _ hz
      have h1 := ht hs.1
      have h2 := ht (show μ + 1 ≤ j + d + 2 by omega)
      have hne : t (j + d + 2) - t (j + 1) ≠ 0 := (sub_pos.2 (by linarith)).ne'
      rw [show j + 1 + d + 1 = j + d + 2 by omega]
      have e1 : ∑ k ∈ range (d + 1), t (k + (j + 1) + 1) = ∑ k ∈ range d, t (k + (j + 1) + 1) + t (j + d + 2) := by
        rw [sum_range_succ, show d + (j + 1) + 1 = j + d + 2 by omega]
      have e2 : ∑ k ∈ range (d + 1), t (k + j + 1) = ∑ k ∈ range d, t (k + (j + 1) + 1) + t (j + 1) := by
        rw [sum_range_succ', show 0 + j + 1 = j + 1 by omega]
        congr 1
        apply sum_congr rfl; intro k _; congr 1; omega
      rw [e1, e2]
      field_simp
      ring

/-- C27, linear precision: the spline with the Greville abscissae as control points is the identity, on all of its domain. -/
theorem greville_reproduces (kv : List K) (p : ℕ) (tol : K) (h : Spec.IsKnotVector kv p) (htol : tol ≤ 0) (x : K)
    (hx : (bounds kv p).1 ≤ x ∧ x < (bounds kv p).2) :
    Spec.curve (Spec.knotSeq kv) p (kv.length - p - 1) (fun j => (greville kv p tol).getD j 0) x = x := by
  have hs := h.size
  have hd := h.degree
  have hpK : (p : K) ≠ 0 := by exact_mod_cast (by omega : p ≠ 0)
  have hmono := KnotInsertion.knotSeq_monotone h.sorted
  have hseq : ∀ i < kv.length, Spec.knotSeq kv i = kv.getD i 0 := by
    intro i hi
    unfold Spec.knotSeq
    rw [List.getD_eq_getElem?_getD, List.getD_eq_getElem?_getD, List.getElem?_eq_getElem hi]; rfl
  -- the span of x
  obtain ⟨μ, hμ1, hμ2, hμx⟩ : ∃ μ, p ≤ μ ∧ μ < kv.length - p - 1 ∧ Spec.knotSeq kv μ ≤ x ∧ x < Spec.knotSeq kv (μ + 1) := by
    have hb1 : Spec.knotSeq kv p ≤ x := by rw [hseq p (by omega)]; exact hx.1
    have hb2 : x < Spec.knotSeq kv (kv.length - p - 1) := by rw [hseq _ (by omega)]; exact hx.2
    have key : ∀ m, p ≤ m → x < Spec.knotSeq kv m → ∃ μ, p ≤ μ ∧ μ < m ∧ Spec.knotSeq kv μ ≤ x ∧ x < Spec.knotSeq kv (μ + 1) := by
      intro m
      induction m with
      | zero => intro hm hxm; have : p = 0 := by omega
                omega
      | succ m ih =>
        intro hm hxm
        by_cases hle : Spec.knotSeq kv m ≤ x
        · rcases Nat.lt_or_ge m p with hlt | hge
          · have : m + 1 = p := by omega
            rw [this] at hxm
            exact absurd hxm (not_lt.2 hb1)
          · exact ⟨m, hge, by omega, hle, hxm⟩
        · rcases Nat.lt_or_ge m p with hlt | hge
          · have : m + 1 = p := by omega
            rw [this] at hxm
            exact absurd hxm (not_lt.2 hb1)
          · obtain ⟨μ, a, b, c⟩ := ih hge (not_le.1 hle)
            exact ⟨μ, a, by omega, c⟩
    obtain ⟨μ, a, b, c⟩ := key _ (by omega) hb2
    exact ⟨μ, a, b, c⟩
  have hg : ∀ j < kv.length - p - 1, (greville kv p tol).getD j 0 = (∑ k ∈ range p, Spec.knotSeq kv (k + j + 1)) / (p : K) := by
    intro j hj
    unfold greville filter
    rw [if_neg (not_lt.2 htol), abscissae_getD _ _ _ hj, abscissa_eq]
    congr 1
    apply sum_congr rfl
    intro k hk
    rw [mem_range] at hk
    rw [hseq _ (by omega)]
  have hsum := bl_knot_sums hmono (lt_of_le_of_lt hμx.1 hμx.2) (fun _ => x) p hμ1
  unfold Spec.curve
  have e : ∑ j ∈ range (kv.length - p - 1), (greville kv p tol).getD j 0 * Spec.basis (Spec.knotSeq kv) p j x
      = ∑ j ∈ range (μ + 1), (∑ k ∈ range p, Spec.knotSeq kv (k + j + 1)) / (p : K) * Blossom.bl (Spec.knotSeq kv) μ (fun _ => x) p j := by
    symm
    rw [← sum_subset (s₁ := range (μ + 1)) (s₂ := range (kv.length - p - 1)) (fun j hj => by rw [mem_range] at *; omega)]
    · apply sum_congr rfl
      intro j hj
      rw [mem_range] at hj
      rw [hg j (by omega), Blossom.basis_eq_bl hmono hμx]
    · intro j hj hj'
      rw [mem_range] at hj hj'
      rw [Blossom.basis_eq_bl hmono hμx]
      have : Blossom.bl (Spec.knotSeq kv) μ (fun _ => x) p j = 0 := by
        by_contra hc
        have := Blossom.supp_bl (Spec.knotSeq kv) μ (fun _ => x) p j hc
        omega
      rw [this, mul_zero]
  rw [e]
  have e2 : ∀ j, (∑ k ∈ range p, Spec.knotSeq kv (k + j + 1)) / (p : K) * Blossom.bl (Spec.knotSeq kv) μ (fun _ => x) p j
      = (p : K)⁻¹ * ((∑ k ∈ range p, Spec.knotSeq kv (k + j + 1)) * Blossom.bl (Spec.knotSeq kv) μ (fun _ => x) p j) := by
    intro j; rw [div_eq_inv_mul, mul_assoc]
  simp only [e2]
  rw [← mul_sum, hsum, sum_const, card_range, nsmul_eq_mul, inv_mul_cancel_left₀ hpK]

/-- Bezier splines: the abscissae are `j / p`, strictly increasing from 0 to 1. -/
theorem bezier_greville (p : ℕ) (hp : 1 ≤ p) :
    (bezierAbscissae p : List K).length = p + 1 ∧ (bezierAbscissae p : List K).Pairwise (· < ·) ∧ (bezierAbscissae p : List K).head? = some 0 ∧
      (bezierAbscissae p : List K).getLast? = some 1 := by
  have hpK : (0 : K) < p := by exact_mod_cast hp
  refine ⟨by simp [bezierAbscissae], ?_, ?_, ?_⟩
  · unfold bezierAbscissae
    rw [List.pairwise_map]
    apply List.Pairwise.imp _ List.pairwise_lt_range
    intro a b hab
    apply mul_lt_mul_of_pos_left _ (one_div_pos.2 hpK)
    exact_mod_cast hab
  · unfold bezierAbscissae
    rw [List.head?_map, List.head?_range, if_neg (by omega)]; simp
  · unfold bezierAbscissae
    rw [List.getLast?_map, List.getLast?_range, if_neg (by omega)]
    simp only [Option.map_some, Nat.add_sub_cancel]
    rw [one_div, inv_mul_cancel₀ hpK.ne']

/-- non-vacuity: a clamped quadratic knot vector with a discontinuity; the filter separates the duplicates -/
example : Spec.IsKnotVector ([0, 0, 0, 1, 1, 1, 2, 2, 2] : List ℚ) 2 ∧ Spec.Clamped ([0, 0, 0, 1, 1, 1, 2, 2, 2] : List ℚ) 2 ∧
    greville ([0, 0, 0, 1, 1, 1, 2, 2, 2] : List ℚ) 2 (-1) = [0, 1 / 2, 1, 1, 3 / 2, 2] ∧
    greville ([0, 0, 0, 1, 1, 1, 2, 2, 2] : List ℚ) 2 (1 / 100) = [0, 1 / 2, 3 / 4, 5 / 4, 3 / 2, 2] := by
  refine ⟨⟨by decide +kernel, by decide, by decide⟩, ⟨?_, ?_⟩, by decide +kernel, by decide +kernel⟩
  · intro i hi
    interval_cases i <;> rfl
  · intro i h1 h2
    simp only [List.length_cons, List.length_nil] at h1 h2
    interval_cases i <;> rfl

/-- C27 fails for knot vectors that are not clamped: the first abscissa lies outside of the parametric bounds. -/
theorem greville_unclamped_violates :
    ∃ (kv : List ℚ) (p : ℕ), Spec.IsKnotVector kv p ∧ ∃ x ∈ greville kv p (-1), x < (bounds kv p).1 :=
  ⟨[0, 1, 2, 3, 4, 5], 2, ⟨by decide +kernel, by decide, by decide⟩, 3 / 2, by decide +kernel, by decide +kernel⟩

/-- C27, limits of the filter: a first knot with more than `p + 1` copies leaves equal abscissae. -/
theorem greville_overclamped_violates :
    ∃ (kv : List ℚ) (p : ℕ) (tol : ℚ), Spec.IsKnotVector kv p ∧ 0 < tol ∧ ¬ (greville kv p tol).Pairwise (· < ·) :=
  ⟨[0, 0, 0, 0, 1, 1, 1], 2, 1 / 100, ⟨by decide +kernel, by decide, by decide⟩, by decide +kernel, by decide +kernel⟩

end Splinepy.Greville
