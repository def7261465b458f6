import Verif.Lemma.Blossom
import Mathlib.Tactic.FieldSimp
import Mathlib.Tactic.Ring
import Mathlib.Tactic.Linarith

set_option linter.unusedSectionVars false

/-! Insertion of one knot: every basis function is a non-negative combination of two neighbouring new ones (Boehm). -/
namespace Splinepy.Boehm

variable {K : Type*} [Field K] [LinearOrder K] [IsStrictOrderedRing K]

/-- knots `t` with `y` inserted behind position `r` -/
def ins (t : ℕ → K) (r : ℕ) (y : K) (i : ℕ) : K := if i ≤ r then t i else if i = r + 1 then y else t (i - 1)

/-- share of the new basis function with the same number -/
def ca (t : ℕ → K) (r : ℕ) (y : K) (d j : ℕ) : K :=
  if j + d ≤ r then 1 else if r < j then 0 else (y - t j) / (t (j + d) - t j)

/-- share of the new basis function number `i` in the old one number `i - 1` -/
def cb (t : ℕ → K) (r : ℕ) (y : K) (d i : ℕ) : K :=
  if i + d ≤ r then 0 else if r < i then 1 else (t (i + d) - y) / (t (i + d) - t i)

theorem ins_low {t : ℕ → K} {r : ℕ} {y : K} {i : ℕ} (h : i ≤ r) : ins t r y i = t i := if_pos h

theorem ins_mid {t : ℕ → K} {r : ℕ} {y : K} : ins t r y (r + 1) = y := by
  unfold ins; rw [if_neg (by omega), if_pos rfl]

theorem ins_high {t : ℕ → K} {r : ℕ} {y : K} {i : ℕ} (h : r < i) : ins t r y (i + 1) = t i := by
  unfold ins; rw [if_neg (by omega), if_neg (by omega)]; rfl

theorem ins_mono {t : ℕ → K} (ht : Monotone t) {r : ℕ} {y : K} (h1 : t r ≤ y) (h2 : y ≤ t (r + 1)) :
    Monotone (ins t r y) := by
  apply monotone_nat_of_le_succ
  intro i
  rcases Nat.lt_trichotomy i r with h | h | h
  · rw [ins_low h.le, ins_low (by omega)]; exact ht (by omega)
  · subst h; rw [ins_low (le_refl _), ins_mid]; exact h1
  · rw [ins_high h]
    obtain ⟨i, rfl⟩ : ∃ i', i = i' + 1 := ⟨i - 1, by omega⟩
    rcases Nat.eq_or_lt_of_le (show r ≤ i by omega) with h' | h'
    · subst h'; rw [ins_mid]; exact h2
    · rw [ins_high h']; exact ht (by omega)

theorem ca_nonneg {t : ℕ → K} (ht : Monotone t) {r : ℕ} {y : K} (h1 : t r ≤ y) (h2 : y ≤ t (r + 1)) (d j : ℕ) :
    0 ≤ ca t r y d j := by
  unfold ca
  split
  · exact zero_le_one
  · split
    · exact le_refl _
    · have a1 := ht (show j ≤ r by omega)
      have a2 := ht (show r + 1 ≤ j + d by omega)
      exact div_nonneg (by linarith) (by linarith)

theorem cb_nonneg {t : ℕ → K} (ht : Monotone t) {r : ℕ} {y : K} (h1 : t r ≤ y) (h2 : y ≤ t (r + 1)) (d i : ℕ) :
    0 ≤ cb t r y d i := by
  unfold cb
  split
  · exact le_refl _
  · split
    · exact zero_le_one
    · have a1 := ht (show i ≤ r by omega)
      have a2 := ht (show r + 1 ≤ i + d by omega)
      exact div_nonneg (by linarith) (by linarith)

/-- a basis function with an empty support vanishes -/
theorem basis_zero {t : ℕ → K} (ht : Monotone t) (d j : ℕ) (h : t j = t (j + d + 1)) (x : K) : Spec.basis t d j x = 0 := by
  induction d generalizing j with
  | zero =>
    simp only [Spec.basis]
    rw [if_neg]
    rintro ⟨h1, h2⟩
    rw [show j + 0 + 1 = j + 1 by omega] at h
    rw [← h] at h2
    exact absurd h2 (not_lt.2 h1)
  | succ d ih =>
    simp only [Spec.basis]
    have m1 := ht (show j ≤ j + d + 1 by omega)
    have m2 := ht (show j + d + 1 ≤ j + (d + 1) + 1 by omega)
    have m3 := ht (show j ≤ j + 1 by omega)
    have m4 := ht (show j + 1 ≤ j + (d + 1) + 1 by omega)
    rw [ih j (by linarith), ih (j + 1) (by rw [show j + 1 + d + 1 = j + (d + 1) + 1 by omega]; linarith)]
    simp

/-- Boehm's formula. -/
theorem boehm {t : ℕ → K} (ht : Monotone t) {r : ℕ} {y : K} (h1 : t r ≤ y) (h2 : y ≤ t (r + 1)) (d j : ℕ) (x : K) :
    Spec.basis t d j x = ca t r y d j * Spec.basis (ins t r y) d j x +
      cb t r y d (j + 1) * Spec.basis (ins t r y) d (j + 1) x := by
  have hs := ins_mono ht h1 h2
  induction d generalizing j with
  | zero =>
    simp only [Spec.basis]
    rcases Nat.lt_trichotomy j r with h | h | h
    · have e1 : ca t r y 0 j = 1 := if_pos (by omega)
      have e2 : cb t r y 0 (j + 1) = 0 := if_pos (by omega)
      rw [e1, e2, ins_low h.le, ins_low (by omega)]
      simp
    · subst h
      have e1 : ca t j y 0 j = 1 := if_pos (by omega)
      have e2 : cb t j y 0 (j + 1) = 1 := by unfold cb; rw [if_neg (by omega), if_pos (by omega)]
      rw [e1, e2, ins_low (le_refl _), ins_mid, ins_high (by omega)]
      by_cases c1 : t j ≤ x
      · by_cases c2 : x < y
        · rw [if_pos ⟨c1, by linarith⟩, if_pos ⟨c1, c2⟩, if_neg (by intro hh; linarith [hh.1])]; ring
        · by_cases c3 : x < t (j + 1)
          · rw [if_pos ⟨c1, c3⟩, if_neg (by intro hh; exact c2 hh.2), if_pos ⟨not_lt.1 c2, c3⟩]; ring
          · rw [if_neg (by intro hh; exact c3 hh.2), if_neg (by intro hh; exact c2 hh.2),
              if_neg (by intro hh; exact c3 hh.2)]; ring
      · rw [if_neg (by intro hh; exact c1 hh.1), if_neg (by intro hh; exact c1 hh.1),
          if_neg (by intro hh; exact c1 (by linarith [hh.1]))]; ring
    · have e1 : ca t r y 0 j = 0 := by unfold ca; rw [if_neg (by omega), if_pos h]
      have e2 : cb t r y 0 (j + 1) = 1 := by unfold cb; rw [if_neg (by omega), if_pos (by omega)]
      rw [e1, e2, ins_high h, ins_high (by omega)]
      simp
  | succ d ih =>
    simp only [Spec.basis]
    rw [ih j, ih (j + 1)]
    have hA : (x - t j) / (t (j + d + 1) - t j) * (ca t r y d j * Spec.basis (ins t r y) d j x) =
        ca t r y (d + 1) j * ((x - ins t r y j) / (ins t r y (j + d + 1) - ins t r y j) *
          Spec.basis (ins t r y) d j x) := by
      by_cases hz : ins t r y j = ins t r y (j + d + 1)
      · rw [basis_zero hs d j hz]; simp
      have hlt := lt_of_le_of_ne (hs (show j ≤ j + d + 1 by omega)) hz
      by_cases c1 : r < j
      · have e1 : ca t r y d j = 0 := by unfold ca; rw [if_neg (by omega), if_pos c1]
        have e2 : ca t r y (d + 1) j = 0 := by unfold ca; rw [if_neg (by omega), if_pos c1]
        rw [e1, e2]; simp
      rw [ins_low (i := j) (by omega)] at hlt ⊢
      rcases Nat.lt_trichotomy (j + d) r with h | h | h
      · have e1 : ca t r y d j = 1 := if_pos (by omega)
        have e2 : ca t r y (d + 1) j = 1 := if_pos (by omega)
        rw [e1, e2, ins_low (by omega)]; ring
      · have e1 : ca t r y d j = 1 := if_pos (by omega)
        have e2 : ca t r y (d + 1) j = (y - t j) / (t (j + (d + 1)) - t j) := by
          unfold ca; rw [if_neg (by omega), if_neg c1]
        subst h
        rw [ins_mid] at hlt ⊢
        have hne : y - t j ≠ 0 := by intro hh; linarith
        rw [e1, e2, show j + (d + 1) = j + d + 1 by omega, one_mul, ← mul_assoc]
        congr 1
        rw [div_mul_div_comm, mul_comm (y - t j), mul_div_mul_right _ _ hne]
      · have e1 : ca t r y d j = (y - t j) / (t (j + d) - t j) := by unfold ca; rw [if_neg (by omega), if_neg c1]
        have e2 : ca t r y (d + 1) j = (y - t j) / (t (j + (d + 1)) - t j) := by
          unfold ca; rw [if_neg (by omega), if_neg c1]
        rw [ins_high (by omega), e1, e2, show j + (d + 1) = j + d + 1 by omega]
        simp only [div_eq_mul_inv]; ring
    have hC : (t (j + d + 2) - x) / (t (j + d + 2) - t (j + 1)) *
          (cb t r y d (j + 1 + 1) * Spec.basis (ins t r y) d (j + 1 + 1) x) =
        cb t r y (d + 1) (j + 1) * ((ins t r y (j + 1 + d + 2) - x) / (ins t r y (j + 1 + d + 2) - ins t r y (j + 1 + 1)) *
          Spec.basis (ins t r y) d (j + 1 + 1) x) := by
      by_cases hz : ins t r y (j + 1 + 1) = ins t r y (j + 1 + 1 + d + 1)
      · rw [basis_zero hs d (j + 1 + 1) hz]; simp
      have hlt := lt_of_le_of_ne (hs (show j + 1 + 1 ≤ j + 1 + 1 + d + 1 by omega)) hz
      rw [show j + 1 + 1 + d + 1 = j + 1 + d + 2 by omega] at hlt
      by_cases c1 : j + 1 + 1 + d ≤ r
      · have e1 : cb t r y d (j + 1 + 1) = 0 := if_pos (by omega)
        have e2 : cb t r y (d + 1) (j + 1) = 0 := if_pos (by omega)
        rw [e1, e2]; simp
      rw [show j + 1 + d + 2 = (j + d + 2) + 1 by omega, ins_high (i := j + d + 2) (by omega)] at hlt ⊢
      rcases Nat.lt_trichotomy (j + 1) r with h | h | h
      · have e1 : cb t r y d (j + 1 + 1) = (t (j + 1 + 1 + d) - y) / (t (j + 1 + 1 + d) - t (j + 1 + 1)) := by
          unfold cb; rw [if_neg c1, if_neg (by omega)]
        have e2 : cb t r y (d + 1) (j + 1) = (t (j + 1 + (d + 1)) - y) / (t (j + 1 + (d + 1)) - t (j + 1)) := by
          unfold cb; rw [if_neg (by omega), if_neg (by omega)]
        rw [e1, e2, ins_low (by omega), show j + 1 + 1 + d = j + d + 2 by omega,
          show j + 1 + (d + 1) = j + d + 2 by omega]
        simp only [div_eq_mul_inv]; ring
      · have e1 : cb t r y d (j + 1 + 1) = 1 := by unfold cb; rw [if_neg c1, if_pos (by omega)]
        have e2 : cb t r y (d + 1) (j + 1) = (t (j + 1 + (d + 1)) - y) / (t (j + 1 + (d + 1)) - t (j + 1)) := by
          unfold cb; rw [if_neg (by omega), if_neg (by omega)]
        subst h
        rw [ins_mid] at hlt ⊢
        have hne : t (j + d + 2) - y ≠ 0 := by intro hh; linarith
        rw [e1, e2, show j + 1 + (d + 1) = j + d + 2 by omega, one_mul, ← mul_assoc]
        congr 1
        rw [div_mul_div_comm, mul_comm (t (j + d + 2) - y), mul_div_mul_right _ _ hne]
      · have e1 : cb t r y d (j + 1 + 1) = 1 := by unfold cb; rw [if_neg c1, if_pos (by omega)]
        have e2 : cb t r y (d + 1) (j + 1) = 1 := by unfold cb; rw [if_neg (by omega), if_pos (by omega)]
        rw [e1, e2, ins_high h]; ring
    have hB : (x - t j) / (t (j + d + 1) - t j) * (cb t r y d (j + 1) * Spec.basis (ins t r y) d (j + 1) x) +
        (t (j + d + 2) - x) / (t (j + d + 2) - t (j + 1)) * (ca t r y d (j + 1) * Spec.basis (ins t r y) d (j + 1) x) =
        ca t r y (d + 1) j * ((ins t r y (j + d + 2) - x) / (ins t r y (j + d + 2) - ins t r y (j + 1)) *
          Spec.basis (ins t r y) d (j + 1) x) +
        cb t r y (d + 1) (j + 1) * ((x - ins t r y (j + 1)) / (ins t r y (j + 1 + d + 1) - ins t r y (j + 1)) *
          Spec.basis (ins t r y) d (j + 1) x) := by
      by_cases hz : ins t r y (j + 1) = ins t r y (j + 1 + d + 1)
      · rw [basis_zero hs d (j + 1) hz]; simp
      have hlt := lt_of_le_of_ne (hs (show j + 1 ≤ j + 1 + d + 1 by omega)) hz
      rw [show j + 1 + d + 1 = j + d + 2 by omega] at hlt ⊢
      simp only [← mul_assoc, ← add_mul]
      congr 1
      rcases Nat.lt_trichotomy (j + 1) (r + 1) with h | h | h
      · -- j + 1 ≤ r
        rw [ins_low (i := j + 1) (by omega)] at hlt ⊢
        rcases Nat.lt_trichotomy (j + d + 1) r with h' | h' | h'
        · have e1 : ca t r y d (j + 1) = 1 := if_pos (by omega)
          have e2 : ca t r y (d + 1) j = 1 := if_pos (by omega)
          have e3 : cb t r y d (j + 1) = 0 := if_pos (by omega)
          have e4 : cb t r y (d + 1) (j + 1) = 0 := if_pos (by omega)
          rw [e1, e2, e3, e4, ins_low (by omega)]; ring
        · have e1 : ca t r y d (j + 1) = 1 := if_pos (by omega)
          have e2 : ca t r y (d + 1) j = 1 := if_pos (by omega)
          have e3 : cb t r y d (j + 1) = 0 := if_pos (by omega)
          have e4 : cb t r y (d + 1) (j + 1) = (t (j + 1 + (d + 1)) - y) / (t (j + 1 + (d + 1)) - t (j + 1)) := by
            unfold cb; rw [if_neg (by omega), if_neg (by omega)]
          subst h'
          rw [show j + d + 2 = j + d + 1 + 1 by omega, ins_mid] at hlt ⊢
          rw [e1, e2, e3, e4, show j + 1 + (d + 1) = j + d + 1 + 1 by omega]
          have n1 : y - t (j + 1) ≠ 0 := by intro hh; linarith
          have n2 : t (j + d + 1 + 1) - t (j + 1) ≠ 0 := by intro hh; linarith
          field_simp
          ring
        · have e1 : ca t r y d (j + 1) = (y - t (j + 1)) / (t (j + 1 + d) - t (j + 1)) := by
            unfold ca; rw [if_neg (by omega), if_neg (by omega)]
          have e2 : ca t r y (d + 1) j = (y - t j) / (t (j + (d + 1)) - t j) := by
            unfold ca; rw [if_neg (by omega), if_neg (by omega)]
          have e3 : cb t r y d (j + 1) = (t (j + 1 + d) - y) / (t (j + 1 + d) - t (j + 1)) := by
            unfold cb; rw [if_neg (by omega), if_neg (by omega)]
          have e4 : cb t r y (d + 1) (j + 1) = (t (j + 1 + (d + 1)) - y) / (t (j + 1 + (d + 1)) - t (j + 1)) := by
            unfold cb; rw [if_neg (by omega), if_neg (by omega)]
          rw [show j + d + 2 = j + d + 1 + 1 by omega, ins_high (i := j + d + 1) (by omega)] at hlt ⊢
          rw [e1, e2, e3, e4, show j + 1 + (d + 1) = j + d + 1 + 1 by omega, show j + 1 + d = j + d + 1 by omega,
            show j + (d + 1) = j + d + 1 by omega]
          have m1 := ht (show j ≤ j + 1 by omega)
          have m2 := ht (show j + d + 1 ≤ j + d + 1 + 1 by omega)
          have n1 : t (j + d + 1) - t (j + 1) ≠ 0 := by intro hh; linarith
          have n2 : t (j + d + 1 + 1) - t (j + 1) ≠ 0 := by intro hh; linarith
          have n3 : t (j + d + 1) - t j ≠ 0 := by intro hh; linarith
          field_simp
          ring
      · -- j = r
        obtain rfl : j = r := by omega
        rw [ins_mid] at hlt ⊢
        have e1 : ca t j y d (j + 1) = 0 := by unfold ca; rw [if_neg (by omega), if_pos (by omega)]
        have e2 : ca t j y (d + 1) j = (y - t j) / (t (j + (d + 1)) - t j) := by
          unfold ca; rw [if_neg (by omega), if_neg (by omega)]
        have e3 : cb t j y d (j + 1) = 1 := by unfold cb; rw [if_neg (by omega), if_pos (by omega)]
        have e4 : cb t j y (d + 1) (j + 1) = 1 := by unfold cb; rw [if_neg (by omega), if_pos (by omega)]
        rw [show j + d + 2 = j + d + 1 + 1 by omega, ins_high (i := j + d + 1) (by omega)] at hlt ⊢
        rw [e1, e2, e3, e4, show j + (d + 1) = j + d + 1 by omega]
        have n1 : t (j + d + 1) - y ≠ 0 := by intro hh; linarith
        have n3 : t (j + d + 1) - t j ≠ 0 := by intro hh; linarith
        field_simp
        ring
      · have e1 : ca t r y d (j + 1) = 0 := by unfold ca; rw [if_neg (by omega), if_pos (by omega)]
        have e2 : ca t r y (d + 1) j = 0 := by unfold ca; rw [if_neg (by omega), if_pos (by omega)]
        have e3 : cb t r y d (j + 1) = 1 := by unfold cb; rw [if_neg (by omega), if_pos (by omega)]
        have e4 : cb t r y (d + 1) (j + 1) = 1 := by unfold cb; rw [if_neg (by omega), if_pos (by omega)]
        rw [show j + d + 2 = j + d + 1 + 1 by omega, ins_high (i := j + d + 1) (by omega), ins_high (i := j) (by omega)]
        rw [e1, e2, e3, e4]; ring
    linear_combination hA + hB + hC

end Splinepy.Boehm
