import Verif.Model.KnotInsertion
import Mathlib.Algebra.Order.Ring.Rat
import Mathlib.Algebra.Field.Rat
import Mathlib.Data.Nat.Cast.Order.Ring
import Mathlib.Tactic.FieldSimp
import Mathlib.Tactic.Ring
import Mathlib.Tactic.Linarith

/-! Properties of `uniform_refine` (C06): knots are inserted equidistantly in every knot span. -/
namespace Splinepy.KnotInsertion
set_option linter.unusedSectionVars false

variable {K : Type} [Field K] [LinearOrder K] [IsStrictOrderedRing K]

theorem getElem_flatMap_const {α β : Type*} (l : List α) (f : α → List β) (n : ℕ) (hn : ∀ a ∈ l, (f a).length = n) (i k : ℕ)
    (hi : i < l.length) (hk : k < n) : (l.flatMap f)[i * n + k]? = (f l[i])[k]? := by
  induction l generalizing i with
  | nil => simp at hi
  | cons a l ih =>
    have ha := hn a (by simp)
    rw [List.flatMap_cons]
    cases i with
    | zero => rw [Nat.zero_mul, Nat.zero_add, List.getElem?_append_left (by omega)]; rfl
    | succ i =>
      rw [List.getElem?_append_right (by rw [ha]; nlinarith), ha, show (i + 1) * n + k - n = i * n + k by rw [Nat.add_mul]; omega]
      rw [ih (fun b hb => hn b (by simp [hb])) i (by simpa using hi)]
      rfl

/-- Number of new knots: `n` in each of the `len - 1` spans. -/
theorem uniform_length (unique : List K) (n : ℕ) : (uniformNewKnots unique n).length = (unique.length - 1) * n := by
  unfold uniformNewKnots
  by_cases h : n = 0
  · simp [h]
  · rw [if_neg h, List.length_flatMap]
    have : (List.zip unique unique.tail).map (fun ab : K × K =>
        ((List.range' 1 n).map (fun (k : ℕ) => (ab.2 - ab.1) / ((n : K) + 1) * (k : K) + ab.1)).length) =
        List.replicate (unique.length - 1) n := by
      rw [List.eq_replicate_iff]
      constructor
      · simp
      · simp
    rw [this]; simp

/-- Knot `k` (from 0) of span `i`. -/
theorem uniform_value (unique : List K) (n i k : ℕ) (hi : i + 1 < unique.length) (hk : k < n) :
    (uniformNewKnots unique n)[i * n + k]? =
      some (unique[i] + ((k : K) + 1) * ((unique[i + 1] - unique[i]) / ((n : K) + 1))) := by
  unfold uniformNewKnots
  rw [if_neg (by omega), getElem_flatMap_const _ _ n _ i k _ hk]
  · have hz : (List.zip unique unique.tail)[i]'(by simp; omega) = (unique[i], unique[i + 1]) := by simp
    rw [hz]
    simp only [List.getElem?_map, List.getElem?_range', hk, Option.map_some]
    push_cast
    congr 1
    ring
  · simp
  · simp; omega

/-- **C06.** For strictly increasing unique knots and `n ≥ 1`, the inserted knots of span `i` are the `n` equidistant points strictly inside of it,
in increasing order, and there are no others. -/
theorem uniform_refine_spec (unique : List K) (n : ℕ) (hs : unique.Pairwise (· < ·)) :
    (uniformNewKnots unique n).length = (unique.length - 1) * n ∧
    ∀ i (hi : i + 1 < unique.length), ∀ k < n, ∃ x, (uniformNewKnots unique n)[i * n + k]? = some x ∧
      unique[i] < x ∧ x < unique[i + 1] ∧ (x - unique[i]) * ((n : K) + 1) = ((k : K) + 1) * (unique[i + 1] - unique[i]) := by
  refine ⟨uniform_length unique n, ?_⟩
  intro i hi k hk
  have hlt : unique[i] < unique[i + 1] := List.pairwise_iff_getElem.1 hs i (i + 1) _ hi (by omega)
  have hn : (0 : K) < (n : K) + 1 := by positivity
  have hkn : (k : K) + 1 < (n : K) + 1 := by
    have : (k : K) < (n : K) := by exact_mod_cast hk
    linarith
  refine ⟨_, uniform_value unique n i k hi hk, ?_, ?_, ?_⟩
  · have : (0 : K) < ((k : K) + 1) * ((unique[i + 1] - unique[i]) / ((n : K) + 1)) := by
      apply mul_pos (by positivity)
      exact div_pos (by linarith) hn
    linarith
  · have h1 : ((k : K) + 1) * ((unique[i + 1] - unique[i]) / ((n : K) + 1)) < unique[i + 1] - unique[i] := by
      rw [← mul_div_assoc, div_lt_iff₀ hn]
      nlinarith
    linarith
  · field_simp
    ring

/-- the new knots as a whole are strictly increasing -/
theorem uniform_refine_sorted (unique : List K) (n : ℕ) (hs : unique.Pairwise (· < ·)) : (uniformNewKnots unique n).Pairwise (· < ·) := by
  rw [List.pairwise_iff_getElem]
  intro a b ha hb hab
  have hlen := uniform_length unique n
  obtain ⟨_, hall⟩ := uniform_refine_spec unique n hs
  have hn : 0 < n := by
    rcases Nat.eq_zero_or_pos n with h | h
    · subst h; omega
    · exact h
  have hdec : ∀ c < (uniformNewKnots unique n).length, c / n + 1 < unique.length ∧ c % n < n ∧ c = c / n * n + c % n := by
    intro c hc
    refine ⟨?_, Nat.mod_lt _ hn, ?_⟩
    · have hq : c / n < unique.length - 1 := by
        apply Nat.div_lt_of_lt_mul; rw [mul_comm]; omega
      generalize c / n = q at hq ⊢
      omega
    · rw [mul_comm]; exact (Nat.div_add_mod c n).symm
  obtain ⟨a1, a2, a3⟩ := hdec a ha
  obtain ⟨b1, b2, b3⟩ := hdec b hb
  obtain ⟨x, hx, hx1, hx2, hx3⟩ := hall (a / n) a1 (a % n) a2
  obtain ⟨y, hy, hy1, hy2, hy3⟩ := hall (b / n) b1 (b % n) b2
  rw [← a3, List.getElem?_eq_getElem ha, Option.some.injEq] at hx
  rw [← b3, List.getElem?_eq_getElem hb, Option.some.injEq] at hy
  rw [hx, hy]
  have hle : a / n ≤ b / n := Nat.div_le_div_right (by omega)
  rcases Nat.eq_or_lt_of_le hle with he | hl
  · have hm : a % n < b % n := by
      rw [a3, b3] at hab
      rw [he] at hab
      omega
    have hK : ((a % n : ℕ) : K) < ((b % n : ℕ) : K) := by exact_mod_cast hm
    have hpos : (0 : K) < (n : K) + 1 := by positivity
    simp only [he] at hx3 hx1
    have hlt : unique[b / n] < unique[b / n + 1] := List.pairwise_iff_getElem.1 hs _ _ _ b1 (by omega)
    have : (x - unique[b / n]) * ((n : K) + 1) < (y - unique[b / n]) * ((n : K) + 1) := by
      rw [hx3, hy3]
      exact mul_lt_mul_of_pos_right (by linarith) (by linarith)
    have := lt_of_mul_lt_mul_right this (le_of_lt hpos)
    linarith
  · have h1 : unique[a / n + 1] ≤ unique[b / n] := by
      rcases Nat.eq_or_lt_of_le (show a / n + 1 ≤ b / n by omega) with h | h
      · simp only [h]; exact le_rfl
      · exact le_of_lt (List.pairwise_iff_getElem.1 hs _ _ _ _ h)
    linarith

example : uniformNewKnots [0, 1, (3 : ℚ)] 2 = [1 / 3, 2 / 3, 5 / 3, 7 / 3] := by decide +kernel

end Splinepy.KnotInsertion
