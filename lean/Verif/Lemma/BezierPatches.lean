import Verif.Model.BezierPatches
import Verif.Lemma.MixedRadix

namespace Splinepy.BezierPatches
open Splinepy.Spec

/-- number of patches per dimension -/
def patchRes (mults : List (List ℕ)) : List ℕ := mults.map (fun m => m.length - 1)

/-- sum of the multiplicities of the first `c` inner knots: entries `1 … c` -/
def innerSum (m : List ℕ) (c : ℕ) : ℕ := ((List.range c).map (fun j => m.getD (j + 1) 0)).sum

theorem innerSum_succ (m : List ℕ) (c : ℕ) : innerSum m (c + 1) = innerSum m c + m.getD (c + 1) 0 := by
  unfold innerSum
  rw [List.range_succ, List.map_append, List.sum_append]; simp

/-- state that belongs to the running id `x` -/
def stateOf (mults : List (List ℕ)) (x : ℕ) : List (ℕ × ℕ) :=
  List.zipWith (fun m c => (c, innerSum m c)) mults (digits (patchRes mults) x)

theorem sub_mod_div' (id r : ℕ) : (id - id % r) / r = id / r := by
  rcases Nat.eq_zero_or_pos r with h | h
  · subst h; simp
  · have h1 := Nat.div_add_mod id r
    rw [show id - id % r = r * (id / r) by omega, Nat.mul_div_cancel_left _ h]

theorem stepDims_next (mults : List (List ℕ)) (x y : ℕ) (hy : y = x ∨ y = x + 1)
    (hpos : ∀ m ∈ mults, 0 < m.length - 1) :
    stepDims mults (stateOf mults x) y = stateOf mults y := by
  induction mults generalizing x y with
  | nil => rfl
  | cons m ms ih =>
    have hn := hpos m (by simp)
    simp only [stateOf, patchRes, List.map_cons, digits, List.zipWith_cons_cons, stepDims, sub_mod_div']
    set n := m.length - 1 with hnd
    have hstep : y / n = x / n ∨ y / n = x / n + 1 := by
      rcases hy with rfl | rfl
      · exact Or.inl rfl
      · rw [Nat.succ_div]; split
        · exact Or.inr rfl
        · exact Or.inl rfl
    congr 1
    · have h1 := Nat.div_add_mod x n
      have h2 := Nat.div_add_mod y n
      have hx := Nat.mod_lt x hn
      have hyl := Nat.mod_lt y hn
      by_cases h : x % n ≠ y % n
      · rw [if_pos h]
        by_cases h0 : y % n = 0
        · rw [if_pos h0, h0]; simp [innerSum]
        · rw [if_neg h0]
          have hs : y % n = x % n + 1 := by
            rcases hy with rfl | rfl
            · exact absurd rfl h
            · rcases hstep with hq | hq
              · rw [hq] at h2; omega
              · rw [hq] at h2
                have : n * (x / n + 1) = n * (x / n) + n := by ring
                omega
          rw [hs, innerSum_succ]
      · rw [if_neg h]
        have : x % n = y % n := by omega
        rw [this]
    · exact ih (x / n) (y / n) hstep (fun m hm => hpos m (by simp [hm]))

theorem stateOf_zero (mults : List (List ℕ)) : stateOf mults 0 = mults.map (fun _ => (0, 0)) := by
  induction mults with
  | nil => rfl
  | cons m ms ih =>
    simp only [stateOf, patchRes, List.map_cons, digits, List.zipWith_cons_cons, Nat.zero_mod, Nat.zero_div]
    congr 1

theorem stateAt_eq (mults : List (List ℕ)) (i : ℕ) (hpos : ∀ m ∈ mults, 0 < m.length - 1) :
    stateAt mults i = stateOf mults i := by
  induction i with
  | zero =>
    rw [stateAt, ← stateOf_zero]
    exact stepDims_next mults 0 0 (Or.inl rfl) hpos
  | succ i ih =>
    rw [stateAt, ih]
    exact stepDims_next mults i (i + 1) (Or.inr rfl) hpos

theorem globalIdGo_eq (ds : List (ℕ × ℕ × ℕ)) (l bez prev acc : ℕ) :
    globalIdGo ds l bez prev acc =
      acc + prev * flat (ds.map (·.2.2))
        (List.zipWith (fun d c => c + d.2.1) ds (digits (ds.map (·.1 + 1)) (l / bez))) := by
  induction ds generalizing bez prev acc with
  | nil => simp [globalIdGo, flat]
  | cons d ds ih =>
    obtain ⟨deg, off, res⟩ := d
    simp only [globalIdGo, List.map_cons, digits, List.zipWith_cons_cons, flat]
    rw [ih, Nat.div_div_eq_div_mul]
    ring

theorem foldl_prod (l : List ℕ) (f : ℕ → ℕ) (a : ℕ) :
    l.foldl (fun n d => n * f d) a = a * (l.map f).prod := by
  induction l generalizing a with
  | nil => simp
  | cons b l ih => rw [List.foldl_cons, ih, List.map_cons, List.prod_cons, Nat.mul_assoc]

theorem foldl_prod' (l : List (List ℕ)) (f : List ℕ → ℕ) (a : ℕ) :
    l.foldl (fun n d => n * f d) a = a * (l.map f).prod := by
  induction l generalizing a with
  | nil => simp
  | cons b l ih => rw [List.foldl_cons, ih, List.map_cons, List.prod_cons, Nat.mul_assoc]

theorem sum_eq_range (m : List ℕ) : m.sum = ((List.range m.length).map (fun j => m.getD j 0)).sum := by
  congr 1
  apply List.ext_getElem
  · simp
  · intro i h1 h2; simp at h2 ⊢; rw [List.getElem?_eq_getElem h1]; rfl

/-- first multiplicity + inner multiplicities up to `c` + last multiplicity is at most the number of knots -/
theorem innerSum_le (m : List ℕ) (c : ℕ) (h : c + 1 < m.length) :
    m.getD 0 0 + innerSum m c + m.getD (m.length - 1) 0 ≤ m.sum := by
  rw [sum_eq_range]
  obtain ⟨k, hk⟩ : ∃ k, m.length = (c + 1) + (k + 1) := ⟨m.length - (c + 2), by omega⟩
  conv_rhs => rw [hk, List.range_add, List.map_append, List.sum_append, List.range_succ_eq_map]
  rw [List.map_cons, List.sum_cons, List.range_succ, List.map_append, List.map_append, List.sum_append]
  have h1 : (List.map (fun j => m.getD j 0) (List.map Nat.succ (List.range c))).sum = innerSum m c := by
    rw [List.map_map]; rfl
  rw [h1]
  have h2 : m.length - 1 = c + 1 + k := by omega
  rw [h2]
  simp

end Splinepy.BezierPatches
