import Verif.Model.Unique
import Mathlib.Tactic.Ring

/-!
C61, the counterpart `reduce_degrees`: the listed directions are reduced one after the other, and the answers are in the order of the list.
-/

namespace Splinepy.Unique

/-- The spline after the first `i` requests, if each request goes on with the result of the one before. -/
def Spec.afterReductions {S : Type} (reduce : S → ℕ → S × Bool) (s : S) (dims : List Int) : ℕ → S
  | 0 => s
  | i + 1 => (reduce (afterReductions reduce s dims i) (dims.getD i 0).toNat).1

theorem afterReductions_cons {S : Type} (reduce : S → ℕ → S × Bool) (s : S) (d : Int) (dims : List Int) :
    ∀ i, Spec.afterReductions reduce s (d :: dims) (i + 1) = Spec.afterReductions reduce (reduce s d.toNat).1 dims i
  | 0 => by simp [Spec.afterReductions]
  | i + 1 => by
    have ih := afterReductions_cons reduce s d dims i
    rw [Spec.afterReductions, ih, Spec.afterReductions, List.getD_cons_succ]

/-- C61 (`reduce_degrees`): with valid directions, each request is applied to the spline that the requests before it left, and the answer number `i` tells whether the request number `i`
succeeded. -/
theorem reduce_degrees_sequence {S : Type} (reduce : S → ℕ → S × Bool) (paraDim : ℕ) : ∀ (s : S) (dims : List Int), (∀ d ∈ dims, 0 ≤ d ∧ d < paraDim) →
    (reduceDegrees reduce paraDim s dims).1 = Spec.afterReductions reduce s dims dims.length ∧
    ∃ answers, (reduceDegrees reduce paraDim s dims).2 = some answers ∧ answers.length = dims.length ∧
      ∀ i < dims.length, answers[i]? = some (reduce (Spec.afterReductions reduce s dims i) (dims.getD i 0).toNat).2
  | s, [], _ => ⟨rfl, [], rfl, rfl, fun i hi => absurd hi (by simp)⟩
  | s, d :: ds, hv => by
    have hd := hv d (by simp)
    obtain ⟨h1, answers, h2, h3, h4⟩ := reduce_degrees_sequence reduce paraDim (reduce s d.toNat).1 ds fun x hx => hv x (by simp [hx])
    rw [reduceDegrees, if_neg (by omega)]
    dsimp only
    refine ⟨?_, (reduce s d.toNat).2 :: answers, ?_, by simp [h3], ?_⟩
    · rw [h1, List.length_cons, afterReductions_cons]
    · rw [h2]; rfl
    · intro i hi
      cases i with
      | zero => simp [Spec.afterReductions]
      | succ i =>
        rw [List.getElem?_cons_succ, h4 i (by simpa using hi), afterReductions_cons, List.getD_cons_succ]

/-- C61 (`reduce_degrees`): a list with an invalid direction raises. The directions before it are reduced already. -/
theorem reduce_degrees_invalid_violates {S : Type} (reduce : S → ℕ → S × Bool) (paraDim : ℕ) : ∀ (s : S) (dims rest : List Int) (d : Int), (∀ d ∈ dims, 0 ≤ d ∧ d < paraDim) →
    (d < 0 ∨ (paraDim : Int) ≤ d) → reduceDegrees reduce paraDim s (dims ++ d :: rest) = (Spec.afterReductions reduce s dims dims.length, none)
  | s, [], rest, d, _, h => by
    rw [List.nil_append, reduceDegrees, if_pos (by omega)]
    rfl
  | s, x :: dims, rest, d, hv, h => by
    have hd := hv x (by simp)
    rw [List.cons_append, reduceDegrees, if_neg (by omega)]
    dsimp only
    rw [reduce_degrees_invalid_violates reduce paraDim _ dims rest d (fun y hy => hv y (by simp [hy])) h, List.length_cons, afterReductions_cons]
    rfl

/-- two directions of degrees 2 and 1, where degree 1 is not reduced: the second request for direction 0 fails -/
example : reduceDegrees (fun (s : List ℕ) d => if s.getD d 0 ≤ 1 then (s, false) else (s.set d (s.getD d 0 - 1), true)) 2 [2, 3] [0, 1, 0] = ([1, 2], some [true, true, false]) := by
  decide

/-- an invalid direction after a valid one: the degree of the first one is reduced -/
example : reduceDegrees (fun (s : List ℕ) d => if s.getD d 0 ≤ 1 then (s, false) else (s.set d (s.getD d 0 - 1), true)) 2 [2, 3] [0, 5] = ([1, 3], none) := by
  decide

end Splinepy.Unique
