import Verif.Lemma.CurrySchoenberg
import Verif.Lemma.KnotInsertion
import Verif.Lemma.Mirror

/-!
Clamped knot vectors as lists of repeated values, their spans, and piecewise polynomials on them.
-/
namespace Splinepy.CurrySchoenberg
open Finset Polynomial Splinepy.Blossom Splinepy.Spec Splinepy.Slice

set_option linter.unusedSectionVars false

variable {K : Type} [Field K] [LinearOrder K] [IsStrictOrderedRing K]

/-! ### repeated values -/

/-- the values `x 0, …, x (n - 1)`, value `i` repeated `m i` times -/
def rep (x : ℕ → K) (m : ℕ → ℕ) (n : ℕ) : List K := (List.range n).flatMap fun i => List.replicate (m i) (x i)

/-- first index after the copies of the first `i` values -/
def off (m : ℕ → ℕ) (i : ℕ) : ℕ := ∑ k ∈ range i, m k

theorem off_succ (m : ℕ → ℕ) (i : ℕ) : off m (i + 1) = off m i + m i := by rw [off, sum_range_succ]; rfl

theorem off_mono (m : ℕ → ℕ) {i j : ℕ} (h : i ≤ j) : off m i ≤ off m j := by
  unfold off
  exact sum_le_sum_of_subset (range_subset_range.2 h)

theorem rep_succ (x : ℕ → K) (m : ℕ → ℕ) (n : ℕ) : rep x m (n + 1) = rep x m n ++ List.replicate (m n) (x n) := by
  unfold rep
  rw [List.range_succ, List.flatMap_append]
  simp

theorem rep_length (x : ℕ → K) (m : ℕ → ℕ) (n : ℕ) : (rep x m n).length = off m n := by
  induction n with
  | zero => rfl
  | succ n ih => rw [rep_succ, List.length_append, ih, List.length_replicate, off_succ]

theorem rep_getD (x : ℕ → K) (m : ℕ → ℕ) {n i j : ℕ} (hi : i < n) (h1 : off m i ≤ j) (h2 : j < off m (i + 1)) (z : K) : (rep x m n).getD j z = x i := by
  induction n with
  | zero => omega
  | succ n ih =>
    rw [rep_succ]
    rcases Nat.lt_or_ge i n with h | h
    · have := off_mono m (show i + 1 ≤ n by omega)
      rw [List.getD_append _ _ _ _ (by rw [rep_length]; omega)]
      exact ih h
    · obtain rfl : i = n := by omega
      rw [List.getD_append_right _ _ _ _ (by rw [rep_length]; omega), rep_length]
      rw [off_succ] at h2
      rw [List.getD_eq_getElem _ _ (by rw [List.length_replicate]; omega), List.getElem_replicate]

theorem mem_rep (x : ℕ → K) (m : ℕ → ℕ) {n : ℕ} {a : K} (h : a ∈ rep x m n) : ∃ i < n, a = x i := by
  unfold rep at h
  obtain ⟨i, hi, ha⟩ := List.mem_flatMap.1 h
  exact ⟨i, List.mem_range.1 hi, List.eq_of_mem_replicate ha⟩

theorem x_mono {x : ℕ → K} {L : ℕ} (hx : ∀ i < L, x i < x (i + 1)) {i j : ℕ} (hij : i ≤ j) (hj : j ≤ L) : x i ≤ x j := by
  induction j, hij using Nat.le_induction with
  | base => exact le_refl _
  | succ j _ ih => exact le_trans (ih (by omega)) (hx j (by omega)).le

theorem x_strict {x : ℕ → K} {L : ℕ} (hx : ∀ i < L, x i < x (i + 1)) {i j : ℕ} (hij : i < j) (hj : j ≤ L) : x i < x j :=
  lt_of_lt_of_le (hx i (by omega)) (x_mono hx hij hj)

theorem rep_sorted {x : ℕ → K} {L : ℕ} (hx : ∀ i < L, x i < x (i + 1)) (m : ℕ → ℕ) {n : ℕ} (hn : n ≤ L + 1) : (rep x m n).Pairwise (· ≤ ·) := by
  induction n with
  | zero => exact List.Pairwise.nil
  | succ n ih =>
    rw [rep_succ, List.pairwise_append]
    refine ⟨ih (by omega), List.pairwise_replicate.2 (Or.inr (le_refl _)), fun a ha b hb => ?_⟩
    obtain ⟨i, hi, rfl⟩ := mem_rep x m ha
    rw [List.eq_of_mem_replicate hb]
    exact x_mono hx hi.le (by omega)

theorem rep_knot (x : ℕ → K) (m : ℕ → ℕ) {n i j : ℕ} (hi : i < n) (h1 : off m i ≤ j) (h2 : j < off m (i + 1)) : knotSeq (rep x m n) j = x i := rep_getD x m hi h1 h2 _

/-- the spans of a clamped knot vector -/
theorem rep_spans {x : ℕ → K} {m : ℕ → ℕ} {L D : ℕ} (hx : ∀ i < L, x i < x (i + 1)) (hm : ∀ i ≤ L, 1 ≤ m i) (h0 : m 0 = D + 1) :
    Spans (knotSeq (rep x m (L + 1))) D L x m (fun i => off m (i + 1) - 1) := by
  have hpos : ∀ i ≤ L, off m i + 1 ≤ off m (i + 1) := fun i hi => by have := hm i hi; rw [off_succ]; omega
  refine ⟨KnotInsertion.knotSeq_monotone (rep_sorted hx m (le_refl _)), ?_, ?_, ?_, ?_, ?_, hx⟩
  · simp only [off_succ, h0]
    simp [off]
  · intro i hi
    have := hpos i (by omega)
    have := hm (i + 1) (by omega)
    simp only [off_succ m (i + 1)]
    omega
  · intro i hi
    have := hpos i (by omega)
    exact rep_knot x m (by omega) (by omega) (by omega)
  · intro i hi
    have := hpos i (by omega)
    have := hpos (i + 1) (by omega)
    exact rep_knot x m (i := i + 1) (by omega) (by omega) (by omega)
  · intro i hi k h1 h2
    have := hpos i (by omega)
    have := hpos (i + 1) (by omega)
    refine rep_knot x m (i := i + 1) (by omega) (by omega) ?_
    rw [off_succ m (i + 1)]
    omega

/-! ### piecewise polynomials -/

/-- `u` belongs to the piece `i`; the last piece contains its end -/
def OnPiece (L : ℕ) (x : ℕ → K) (i : ℕ) (u : K) : Prop := i < L ∧ x i ≤ u ∧ (u < x (i + 1) ∨ (i + 1 = L ∧ u = x L))

theorem onPiece_exists {L : ℕ} {x : ℕ → K} (hL : 0 < L) {u : K} (h0 : x 0 ≤ u) (h1 : u ≤ x L) : ∃ i, OnPiece L x i u := by
  have key : ∀ n, n < L → (∃ i ≤ n, OnPiece L x i u) ∨ x (n + 1) ≤ u := by
    intro n
    induction n with
    | zero =>
      intro h
      by_cases hu : u < x 1
      · exact Or.inl ⟨0, le_refl _, h, h0, Or.inl hu⟩
      · exact Or.inr (not_lt.1 hu)
    | succ n ih =>
      intro h
      rcases ih (by omega) with ⟨i, hi, hp⟩ | hge
      · exact Or.inl ⟨i, by omega, hp⟩
      · by_cases hu : u < x (n + 1 + 1)
        · exact Or.inl ⟨n + 1, le_refl _, h, hge, Or.inl hu⟩
        · exact Or.inr (not_lt.1 hu)
  rcases key (L - 1) (by omega) with ⟨i, -, hp⟩ | hge
  · exact ⟨i, hp⟩
  · rw [show L - 1 + 1 = L by omega] at hge
    by_cases hu : x (L - 1) ≤ u
    · exact ⟨L - 1, by omega, hu, Or.inr ⟨by omega, le_antisymm h1 hge⟩⟩
    · rcases Nat.lt_or_ge 1 L with h | h
      · rcases key (L - 2) (by omega) with ⟨i, -, hp⟩ | hge'
        · exact ⟨i, hp⟩
        · rw [show L - 2 + 1 = L - 1 by omega] at hge'
          exact absurd hge' hu
      · rw [show L - 1 = 0 by omega] at hu
        exact absurd h0 hu

theorem onPiece_unique {L : ℕ} {x : ℕ → K} (hx : ∀ i < L, x i < x (i + 1)) {u : K} {i j : ℕ} (hi : OnPiece L x i u) (hj : OnPiece L x j u) : i = j := by
  have key : ∀ i j, OnPiece L x i u → OnPiece L x j u → ¬ i < j := by
    rintro i j ⟨h1, -, h3⟩ ⟨g1, g2, -⟩ hij
    rcases h3 with h | ⟨h, -⟩
    · exact absurd (lt_of_lt_of_le h (le_trans (x_mono hx (show i + 1 ≤ j by omega) (by omega)) g2)) (lt_irrefl _)
    · omega
  rcases Nat.lt_trichotomy i j with h | h | h
  · exact absurd h (key i j hi hj)
  · exact h
  · exact absurd h (key j i hj hi)

/-- `f` is a polynomial of degree at most `D` on every piece, and the neighbouring polynomials agree up to order `r i` at `x i`. -/
def PP (L : ℕ) (x : ℕ → K) (D : ℕ) (r : ℕ → ℕ) (f : K → K) : Prop :=
  ∃ P : ℕ → K[X], (∀ i < L, (P i).natDegree ≤ D) ∧ (∀ i, i + 1 < L → (X - C (x (i + 1))) ^ r (i + 1) ∣ P (i + 1) - P i) ∧ ∀ i u, OnPiece L x i u → f u = (P i).eval u

namespace PP
variable {L : ℕ} {x : ℕ → K} {r : ℕ → ℕ}

theorem weaken {D : ℕ} {r' : ℕ → ℕ} {f : K → K} (h : PP L x D r f) (hr : ∀ i, i + 1 < L → r' (i + 1) ≤ r (i + 1)) : PP L x D r' f := by
  obtain ⟨P, h1, h2, h3⟩ := h
  exact ⟨P, h1, fun i hi => (pow_dvd_pow _ (hr i hi)).trans (h2 i hi), h3⟩

theorem mul {D D' : ℕ} {f g : K → K} (hf : PP L x D r f) (hg : PP L x D' r g) : PP L x (D + D') r (fun u => f u * g u) := by
  obtain ⟨P, h1, h2, h3⟩ := hf
  obtain ⟨Q, g1, g2, g3⟩ := hg
  refine ⟨fun i => P i * Q i, fun i hi => le_trans natDegree_mul_le (Nat.add_le_add (h1 i hi) (g1 i hi)), fun i hi => ?_, fun i u hu => by simp only [eval_mul, h3 i u hu, g3 i u hu]⟩
  have e : P (i + 1) * Q (i + 1) - P i * Q i = (P (i + 1) - P i) * Q (i + 1) + P i * (Q (i + 1) - Q i) := by ring
  rw [e]
  exact dvd_add (Dvd.dvd.mul_right (h2 i hi) _) (Dvd.dvd.mul_left (g2 i hi) _)

theorem one : PP L x 0 r (fun _ => 1) := ⟨fun _ => 1, by simp, by simp, by simp⟩

theorem prod {ι : Type} (s : Finset ι) (D : ι → ℕ) (f : ι → K → K) (h : ∀ k ∈ s, PP L x (D k) r (f k)) : PP L x (∑ k ∈ s, D k) r (fun u => ∏ k ∈ s, f k u) := by
  classical
  induction s using Finset.induction_on with
  | empty => simpa using one
  | insert a s ha ih =>
    rw [sum_insert ha]
    have := mul (h a (mem_insert_self a s)) (ih fun k hk => h k (mem_insert_of_mem hk))
    simpa only [prod_insert ha] using this

/-- Piecewise polynomials are combinations of the B-splines on the closed domain. -/
theorem combination {D : ℕ} {M : ℕ → ℕ} (hL : 0 < L) (hx : ∀ i < L, x i < x (i + 1)) (hM : ∀ i ≤ L, 1 ≤ M i) (h0 : M 0 = D + 1) (hl : M L = D + 1)
    (hr : ∀ i, i + 1 < L → r (i + 1) = D + 1 - M (i + 1)) {f : K → K} (hf : PP L x D r f) :
    ∃ c : ℕ → K, ∀ u, x 0 ≤ u → u ≤ x L →
      f u = ∑ j ∈ range ((rep x M (L + 1)).length - D - 1), basisC (knotSeq (rep x M (L + 1))) ((rep x M (L + 1)).length - D - 1) D j u * c j := by
  obtain ⟨P, h1, h2, h3⟩ := hf
  have H := rep_spans (D := D) hx hM h0
  obtain ⟨c, hc⟩ := curry_schoenberg H P h1 (fun i hi => by rw [← hr i hi]; exact h2 i hi)
  refine ⟨c, fun u hu0 hu1 => ?_⟩
  obtain ⟨i, hi⟩ := onPiece_exists hL hu0 hu1
  have hlen : (rep x M (L + 1)).length - D - 1 = off M L := by rw [rep_length, off_succ, hl]; omega
  have hpos : ∀ i ≤ L, off M i + 1 ≤ off M (i + 1) := fun i hi => by have := hM i hi; rw [off_succ]; omega
  have hend : knotSeq (rep x M (L + 1)) (off M L) = x L := rep_knot x M (by omega) (le_refl _) (hpos L (le_refl _))
  have hmono := off_mono M (show i + 1 ≤ L from hi.1)
  have hp := hpos i (by have := hi.1; omega)
  rw [h3 i u hi, hlen, ← hc i hi.1 (off M L) (by omega) u]
  refine sum_congr rfl fun j _ => ?_
  rw [Mirror.basisC_eq_bl H.mono (μ := off M (i + 1) - 1)]
  rw [hend]
  have hleft := H.left i hi.1
  have hright := H.right i hi.1
  rw [hleft, hright]
  obtain ⟨a1, a2, a3⟩ := hi
  rcases a3 with a3 | ⟨a3, a4⟩
  · exact Or.inl ⟨(lt_of_lt_of_le a3 (x_mono hx (show i + 1 ≤ L by omega) (le_refl _))).ne, a2, a3⟩
  · refine Or.inr ⟨a4, ?_, ?_⟩
    · rw [a4]; exact x_strict hx a1 (le_refl _)
    · rw [a4, a3]

end PP

/-- polynomial of a basis function on a piece -/
theorem basisC_piece {x : ℕ → K} {m : ℕ → ℕ} {L p : ℕ} (hx : ∀ i < L, x i < x (i + 1)) (hm : ∀ i ≤ L, 1 ≤ m i) (h0 : m 0 = p + 1) (hl : m L = p + 1) (j i : ℕ) (u : K)
    (hu : OnPiece L x i u) :
    basisC (knotSeq (rep x m (L + 1))) ((rep x m (L + 1)).length - p - 1) p j u = (piece (knotSeq (rep x m (L + 1))) p (off m (i + 1) - 1) j).eval u := by
  have H := rep_spans (D := p) hx hm h0
  have hlen : (rep x m (L + 1)).length - p - 1 = off m L := by rw [rep_length, off_succ, hl]; omega
  have hpos : ∀ i ≤ L, off m i + 1 ≤ off m (i + 1) := fun i hi => by have := hm i hi; rw [off_succ]; omega
  have hend : knotSeq (rep x m (L + 1)) (off m L) = x L := rep_knot x m (by omega) (le_refl _) (hpos L (le_refl _))
  rw [eval_piece, hlen, Mirror.basisC_eq_bl H.mono (μ := off m (i + 1) - 1)]
  rw [hend]
  have hleft := H.left i hu.1
  have hright := H.right i hu.1
  rw [hleft, hright]
  obtain ⟨a1, a2, a3⟩ := hu
  rcases a3 with a3 | ⟨a3, a4⟩
  · exact Or.inl ⟨(lt_of_lt_of_le a3 (x_mono hx (show i + 1 ≤ L by omega) (le_refl _))).ne, a2, a3⟩
  · refine Or.inr ⟨a4, ?_, ?_⟩
    · rw [a4]; exact x_strict hx a1 (le_refl _)
    · rw [a4, a3]

open Classical in
/-- derivative of a basis function, from the right except at the end -/
noncomputable def dbasis (x : ℕ → K) (m : ℕ → ℕ) (L p j : ℕ) (u : K) : K :=
  if h : ∃ i, OnPiece L x i u then (derivative (piece (knotSeq (rep x m (L + 1))) p (off m (h.choose + 1) - 1) j)).eval u else 0

theorem dbasis_piece {x : ℕ → K} {m : ℕ → ℕ} {L p : ℕ} (hx : ∀ i < L, x i < x (i + 1)) (j i : ℕ) (u : K) (hu : OnPiece L x i u) :
    dbasis x m L p j u = (derivative (piece (knotSeq (rep x m (L + 1))) p (off m (i + 1) - 1) j)).eval u := by
  have h : ∃ i, OnPiece L x i u := ⟨i, hu⟩
  rw [dbasis, dif_pos h, onPiece_unique hx h.choose_spec hu]

theorem pp_basis {x : ℕ → K} {m : ℕ → ℕ} {L p : ℕ} (hx : ∀ i < L, x i < x (i + 1)) (hm : ∀ i ≤ L, 1 ≤ m i) (h0 : m 0 = p + 1) (hl : m L = p + 1) (j : ℕ) :
    PP L x p (fun i => p + 1 - m i) (fun u => basisC (knotSeq (rep x m (L + 1))) ((rep x m (L + 1)).length - p - 1) p j u) :=
  ⟨fun i => piece (knotSeq (rep x m (L + 1))) p (off m (i + 1) - 1) j, fun i _ => blP_degree _ _ _ _,
    fun i hi => piece_jump (rep_spans (D := p) hx hm h0) (fun i hi => hm _ (by omega)) i hi j, fun i u hu => basisC_piece hx hm h0 hl j i u hu⟩

theorem pp_dbasis {x : ℕ → K} {m : ℕ → ℕ} {L p : ℕ} (hx : ∀ i < L, x i < x (i + 1)) (hm : ∀ i ≤ L, 1 ≤ m i) (h0 : m 0 = p + 1) (j : ℕ) :
    PP L x (p - 1) (fun i => p - m i) (fun u => dbasis x m L p j u) := by
  refine ⟨fun i => derivative (piece (knotSeq (rep x m (L + 1))) p (off m (i + 1) - 1) j), fun i _ => ?_, fun i hi => ?_, fun i u hu => dbasis_piece hx j i u hu⟩
  · refine le_trans (natDegree_derivative_le _) ?_
    have := blP_degree (knotSeq (rep x m (L + 1))) (off m (i + 1) - 1) p j
    exact Nat.sub_le_sub_right this 1
  · rw [← derivative_sub]
    have := piece_jump (rep_spans (D := p) hx hm h0) (fun i hi => hm _ (by omega)) i hi j
    have h2 := pow_sub_one_dvd_derivative_of_pow_dvd this
    rwa [show p + 1 - m (i + 1) - 1 = p - m (i + 1) by omega] at h2

end Splinepy.CurrySchoenberg
