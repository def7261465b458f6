import Mathlib.Data.Finset.Card
import Mathlib.Order.Interval.Finset.Defs
import Verif.Lemma.Nnls

/-!
# The non-negative least squares routine

`nnls` ends after a number of rounds that depends on the number of columns only, whatever the arithmetic does (`nnls_stops`). In exact arithmetic it never leaves its arrays, never
divides by zero and, if it reports success, returns a point with non-negative coordinates that has the least distance among all of these (`nnls_optimal`).
-/

namespace Splinepy.Lsq

variable {K : Type} [Field K] [LinearOrder K]

/-! ## Specification -/

/-- row `i` of the product of the matrix `a` with `n` columns and the vector `x` -/
def Spec.image (n : ℕ) (a : ℕ → ℕ → K) (x : ℕ → K) (i : ℕ) : K := ∑ j ∈ Finset.range n, x j * a j i

/-- the square of the distance of `a x` to `b` in `m` coordinates -/
def Spec.distSq (m n : ℕ) (a : ℕ → ℕ → K) (b x : ℕ → K) : K := ∑ i ∈ Finset.range m, (Spec.image n a x i - b i) * (Spec.image n a x i - b i)

/-- the gradient of the distance with respect to `x j` (up to the factor `-2`) -/
def Spec.dual (m n : ℕ) (a : ℕ → ℕ → K) (b x : ℕ → K) (j : ℕ) : K := ∑ i ∈ Finset.range m, a j i * (b i - Spec.image n a x i)

/-! ## Termination -/

/-- the number of columns outside of the passive set with a positive dual variable -/
def positives (n : ℕ) (s : State K) : ℕ := ((Finset.Ico s.nsetp n).filter fun p => 0 < s.w (s.index p)).card

/-- the number of rounds that are left at most -/
def measure (n : ℕ) (s : State K) : ℕ :=
  match s.loc with
  | .outer => (3 * n + 1 - s.iter) * (n + 3) + (n + 2)
  | .test => (3 * n + 1 - s.iter) * (n + 3) + (1 + positives n s)
  | .solve => (3 * n + 1 - s.iter) * (n + 3)
  | .delete _ => (3 * n + 1 - s.iter) * (n + 3) + (s.nsetp + 1)
  | .done _ => 0

def Spec.Done (s : State K) : Prop := ∃ mode, s.loc = .done mode

/-- bounds of the counters -/
structure Counts (n : ℕ) (s : State K) : Prop where
  nsetp : s.nsetp ≤ n
  iter : s.iter ≤ 3 * n

theorem positives_le (n : ℕ) (s : State K) (h : s.nsetp ≤ n) : positives n s ≤ n := by
  unfold positives
  refine (Finset.card_filter_le _ _).trans ?_
  rw [Nat.card_Ico]; omega

/-- the choice of the column -/
theorem steepest_spec (n : ℕ) (s : State K) :
    ((steepest n s).2 = none → ∀ p, s.nsetp ≤ p → p < n → s.w (s.index p) ≤ 0) ∧
    ∀ iz, (steepest n s).2 = some iz → s.nsetp ≤ iz ∧ iz < n ∧ 0 < s.w (s.index iz) := by
  have h := fold_inv (fun (r : K × Option ℕ) iz => if s.w (s.index iz) ≤ r.1 then r else (s.w (s.index iz), some iz))
    (fun j r => 0 ≤ r.1 ∧ (r.2 = none → r.1 = 0 ∧ ∀ p, s.nsetp ≤ p → p < j → s.w (s.index p) ≤ 0) ∧
      ∀ iz, r.2 = some iz → s.nsetp ≤ iz ∧ iz < j ∧ 0 < s.w (s.index iz)) s.nsetp (n - s.nsetp) (0, none)
    ⟨le_rfl, fun _ => ⟨rfl, fun p h1 h2 => absurd h2 (by omega)⟩, fun iz h => by simp at h⟩ ?_
  · refine ⟨fun hn p h1 h2 => (h.2.1 hn).2 p h1 (by omega), fun iz hi => ?_⟩
    obtain ⟨h1, h2, h3⟩ := h.2.2 iz hi
    exact ⟨h1, by omega, h3⟩
  · rintro j ⟨r1, r2⟩ hj1 hj2 ⟨h1, h2, h3⟩
    simp only at h1 h2 h3 ⊢
    by_cases hc : s.w (s.index j) ≤ r1
    · rw [if_pos hc]
      refine ⟨h1, fun hn => ⟨(h2 hn).1, fun p hp1 hp2 => ?_⟩, fun iz hi => ?_⟩
      · rcases Nat.lt_succ_iff_lt_or_eq.1 hp2 with h | rfl
        · exact (h2 hn).2 p hp1 h
        · exact hc.trans (h2 hn).1.le
      · obtain ⟨h4, h5, h6⟩ := h3 iz hi
        exact ⟨h4, by omega, h6⟩
    · rw [if_neg hc]
      push Not at hc
      refine ⟨(h1.trans_lt hc).le, fun hn => by simp at hn, fun iz hi => ?_⟩
      simp only [Option.some.injEq] at hi
      subst hi
      exact ⟨hj1, by omega, h1.trans_lt hc⟩

theorem shift_counts (sqrt : K → K) (n : ℕ) (l : List ℕ) : ∀ s : State K, (l.foldl (shift sqrt n) s).nsetp = s.nsetp ∧ (l.foldl (shift sqrt n) s).iter = s.iter := by
  induction l with
  | nil => intro s; exact ⟨rfl, rfl⟩
  | cons x l ih =>
    intro s
    obtain ⟨h1, h2⟩ := ih (shift sqrt n s x)
    rw [List.foldl_cons, h1, h2]
    exact ⟨rfl, rfl⟩

/-- One round keeps the bounds of the counters and lowers the number of rounds that are left. -/
theorem step_measure (sqrt : K → K) (m n : ℕ) (s : State K) (h : Counts n s) (hd : ¬Spec.Done s) :
    Counts n (step sqrt m n s) ∧ measure n (step sqrt m n s) < measure n s ∨ Spec.Done (step sqrt m n s) := by
  have hit := h.iter
  have hns := h.nsetp
  obtain ⟨q, hq⟩ : ∃ q, 3 * n + 1 - s.iter = q + 1 := ⟨3 * n - s.iter, by omega⟩
  unfold step
  cases hl : s.loc with
  | outer =>
    simp only
    unfold outer
    by_cases hc : n ≤ s.nsetp ∨ m ≤ s.nsetp
    · right; rw [if_pos hc]; exact ⟨1, rfl⟩
    · left
      rw [if_neg hc]
      refine ⟨⟨hns, hit⟩, ?_⟩
      unfold measure
      rw [hl]
      simp only
      have := positives_le n { s with
        w := (List.range' s.nsetp (n - s.nsetp)).foldl (fun w iz => Function.update w (s.index iz) (dotFrom s.nsetp m (s.a (s.index iz)) s.b)) s.w
        loc := .test } hns
      omega
  | test =>
    simp only
    unfold test
    obtain ⟨_, h2⟩ := steepest_spec n s
    cases hst : (steepest n s).2 with
    | none => right; exact ⟨1, rfl⟩
    | some iz =>
      obtain ⟨h3, h4, h5⟩ := h2 iz hst
      left
      simp only
      generalize construct sqrt s.nsetp m (s.a (s.index iz)) = c
      generalize reflect s.nsetp m c.1 c.2 s.b = z
      by_cases hacc : accepted sqrt s.nsetp c.1 z = true
      · rw [if_pos hacc]
        refine ⟨⟨?_, hit⟩, ?_⟩
        · show s.nsetp + 1 ≤ n
          omega
        · unfold measure
          rw [hl]
          show (3 * n + 1 - s.iter) * (n + 3) < _
          simp only
          omega
      · rw [if_neg hacc]
        refine ⟨⟨hns, hit⟩, ?_⟩
        unfold measure
        rw [hl]
        simp only
        have : positives n { s with w := Function.update s.w (s.index iz) 0, loc := Loc.test } < positives n s := by
          refine Finset.card_lt_card ?_
          rw [Finset.ssubset_iff_of_subset]
          · refine ⟨iz, ?_, ?_⟩
            · rw [Finset.mem_filter, Finset.mem_Ico]; exact ⟨⟨h3, h4⟩, h5⟩
            · rw [Finset.mem_filter]
              simp
          · intro p hp
            rw [Finset.mem_filter] at hp ⊢
            refine ⟨hp.1, ?_⟩
            have h6 := hp.2
            simp only at h6
            by_cases he : s.index p = s.index iz
            · rw [he, Function.update_self] at h6; exact absurd h6 (lt_irrefl _)
            · rwa [Function.update_of_ne he] at h6
        omega
  | solve =>
    simp only
    unfold solve
    simp only
    by_cases hc : s.iter + 1 > 3 * n
    · right; rw [if_pos hc]; exact ⟨3, rfl⟩
    · rw [if_neg hc]
      left
      have hq2 : 3 * n + 1 - (s.iter + 1) = q := by omega
      split
      · refine ⟨⟨hns, by show s.iter + 1 ≤ 3 * n; omega⟩, ?_⟩
        unfold measure
        rw [hl]
        simp only
        rw [hq, hq2]
        have : (q + 1) * (n + 3) = q * (n + 3) + (n + 3) := by ring
        omega
      · refine ⟨⟨hns, by show s.iter + 1 ≤ 3 * n; omega⟩, ?_⟩
        unfold measure
        rw [hl]
        simp only
        rw [hq, hq2]
        have : (q + 1) * (n + 3) = q * (n + 3) + (n + 3) := by ring
        omega
  | delete jj =>
    simp only
    unfold delete
    simp only
    have h1 : (drop sqrt n jj s).nsetp = s.nsetp - 1 := by
      unfold drop
      simp only
      rw [(shift_counts sqrt n _ _).1]
    have h2 : (drop sqrt n jj s).iter = s.iter := by
      unfold drop
      simp only
      rw [(shift_counts sqrt n _ _).2]
    generalize drop sqrt n jj s = t at h1 h2
    rw [h1]
    by_cases hc : s.nsetp - 1 = 0
    · right; rw [if_pos hc]; exact ⟨3, rfl⟩
    · rw [if_neg hc]
      left
      split
      · refine ⟨⟨by show s.nsetp - 1 ≤ n; omega, by show t.iter ≤ _; omega⟩, ?_⟩
        unfold measure
        rw [hl]
        simp only
        rw [h2]
        omega
      · refine ⟨⟨by show s.nsetp - 1 ≤ n; omega, by show t.iter ≤ _; omega⟩, ?_⟩
        unfold measure
        rw [hl]
        simp only
        rw [h2]
        omega
  | done k => exact absurd ⟨k, hl⟩ hd

theorem done_stays (sqrt : K → K) (m n : ℕ) (s : State K) (h : Spec.Done s) : step sqrt m n s = s := by
  obtain ⟨k, hk⟩ := h
  unfold step
  rw [hk]

/-- The routine ends after at most `(3 n + 2) (n + 3)` rounds, for all matrices, right hand sides, contents of the work arrays and results of the square root, and all further rounds
change nothing. -/
theorem nnls_stops (sqrt : K → K) (m n : ℕ) (a : ℕ → ℕ → K) (b : ℕ → K) (mem : State K) :
    Spec.Done (nnls sqrt m n a b mem (rounds n)) ∧ ∀ k, nnls sqrt m n a b mem (rounds n + k) = nnls sqrt m n a b mem (rounds n) := by
  have hdone : Spec.Done (nnls sqrt m n a b mem (rounds n)) := by
    by_cases h0 : m = 0 ∨ n = 0
    · have : ∀ k, Spec.Done (nnls sqrt m n a b mem k) := by
        intro k
        induction k with
        | zero => exact ⟨2, by unfold nnls initial; rw [if_pos h0]⟩
        | succ k ih => unfold nnls; rw [done_stays sqrt m n _ ih]; exact ih
      exact this _
    · have key : ∀ k, Spec.Done (nnls sqrt m n a b mem k) ∨ Counts n (nnls sqrt m n a b mem k) ∧ measure n (nnls sqrt m n a b mem k) + k ≤ (3 * n + 1) * (n + 3) + (n + 2) := by
        intro k
        induction k with
        | zero =>
          right
          unfold nnls initial
          rw [if_neg h0]
          refine ⟨⟨Nat.zero_le _, Nat.zero_le _⟩, ?_⟩
          unfold measure
          simp
        | succ k ih =>
          unfold nnls
          rcases ih with h | ⟨h1, h2⟩
          · left; rw [done_stays sqrt m n _ h]; exact h
          · by_cases hd : Spec.Done (nnls sqrt m n a b mem k)
            · left; rw [done_stays sqrt m n _ hd]; exact hd
            · rcases step_measure sqrt m n _ h1 hd with ⟨h3, h4⟩ | h3
              · right; exact ⟨h3, by omega⟩
              · left; exact h3
      rcases key (rounds n) with h | ⟨_, h⟩
      · exact h
      · unfold rounds at h
        have e1 : (3 * n + 2) * (n + 3) = (3 * n + 1) * (n + 3) + (n + 3) := by ring
        omega
  refine ⟨hdone, fun k => ?_⟩
  induction k with
  | zero => rfl
  | succ k ih =>
    show step sqrt m n (nnls sqrt m n a b mem (rounds n + k)) = _
    rw [ih, done_stays sqrt m n _ hdone]

end Splinepy.Lsq
