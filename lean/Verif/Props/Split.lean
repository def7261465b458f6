import Verif.Model.Split
import Mathlib.Algebra.Order.Field.Basic
import Mathlib.Tactic.Linarith
import Mathlib.Tactic.FieldSimp
import Mathlib.Tactic.Ring
import Mathlib.Data.Rat.Defs
import Mathlib.Algebra.Order.Ring.Rat
import Mathlib.Data.Prod.Lex

/-!
C45: pieces of a split Bezier spline are the restrictions of the spline to the intervals between the locations.
-/
set_option linter.unusedSectionVars false
namespace Splinepy.Split

variable {K S P : Type} [Field K] [LinearOrder K] [IsStrictOrderedRing K]

/-- `eval s x` is the point of `s` at the parameter with `x` in the direction of the split; the split at one position returns the two halves scaled to the
unit interval -/
def Spec.SplitsExactly (split : S → K → S × S) (eval : S → K → P) : Prop :=
  ∀ s t x, eval (split s t).1 x = eval s (t * x) ∧ eval (split s t).2 x = eval s (t + (1 - t) * x)

/-- `piece` is `s` restricted to `[a, b]` and scaled to the unit interval -/
def Spec.IsRestriction (eval : S → K → P) (s piece : S) (a b : K) : Prop := ∀ x, eval piece x = eval s (a + (b - a) * x)

/-- `pieces` are the restrictions of `s` to the consecutive intervals given by `a`, the locations and one -/
def Spec.ArePieces (eval : S → K → P) (s : S) : K → List K → List S → Prop
  | a, [], pieces => ∃ p, pieces = [p] ∧ Spec.IsRestriction eval s p a 1
  | a, l :: ls, pieces => ∃ p ps, pieces = p :: ps ∧ Spec.IsRestriction eval s p a l ∧ Spec.ArePieces eval s l ls ps

theorem splitLoop_spec {split : S → K → S × S} {eval : S → K → P} (h : Spec.SplitsExactly split eval) (s : S) (ls : List K) (prev : K) (rest : S)
    (hr : Spec.IsRestriction eval s rest prev 1) (hs : (prev :: ls).Pairwise (· ≤ ·)) (h1 : ∀ l ∈ (prev :: ls).dropLast, l < 1) :
    ∃ ps, splitLoop split prev rest ls = some ps ∧ Spec.ArePieces eval s prev ls ps := by
  induction ls generalizing prev rest with
  | nil => exact ⟨[rest], rfl, rest, rfl, hr⟩
  | cons l ls ih =>
    have hp : prev < 1 := h1 prev (by simp)
    have hne : 1 - prev ≠ 0 := by linarith
    have hrest : Spec.IsRestriction eval s (split rest ((l - prev) / (1 - prev))).2 l 1 := by
      intro x
      rw [(h _ _ _).2, hr]
      congr 1
      field_simp
      ring
    obtain ⟨ps, e1, e2⟩ := ih l _ hrest (List.pairwise_cons.1 hs).2 (fun l' hl' => h1 l' (by rw [List.dropLast_cons_of_ne_nil (by simp)]; exact List.mem_cons_of_mem _ hl'))
    refine ⟨(split rest ((l - prev) / (1 - prev))).1 :: ps, ?_, _, ps, rfl, ?_, e2⟩
    · simp only [splitLoop, hne, if_false, e1, Option.map_some]
    · intro x
      rw [(h _ _ _).1, hr]
      congr 1
      field_simp

/-- C45, the part that holds: for locations in the unit interval, given in any order, at most one of which is one, `split` returns one more piece than
there are locations, and the pieces are the restrictions of the spline to the intervals between the sorted locations. -/
theorem split_pieces_partial {split : S → K → S × S} {eval : S → K → P} (h : Spec.SplitsExactly split eval) (s : S) (locations : List K)
    (hne : locations ≠ []) (h01 : ∀ l ∈ locations, 0 ≤ l ∧ l ≤ 1) (h1 : ∀ l ∈ (locations.insertionSort (· ≤ ·)).dropLast, l < 1) :
    ∃ pieces, splitAt split s locations = some pieces ∧ Spec.ArePieces eval s 0 (locations.insertionSort (· ≤ ·)) pieces ∧ pieces.length = locations.length + 1 := by
  unfold splitAt
  rw [if_neg hne, if_neg (by
    rw [List.any_eq_true]
    rintro ⟨l, hl, h⟩
    simp only [Bool.or_eq_true, decide_eq_true_eq] at h
    have := h01 l hl
    rcases h with h | h <;> linarith)]
  have hs := List.pairwise_insertionSort (· ≤ ·) locations
  have hlen := List.length_insertionSort (· ≤ ·) locations
  cases hsort : locations.insertionSort (· ≤ ·) with
  | nil =>
    rw [hsort] at hlen
    exact absurd (List.length_eq_zero_iff.1 hlen.symm) hne
  | cons l ls =>
    rw [hsort] at hs h1 hlen
    have hrest : Spec.IsRestriction eval s (split s l).2 l 1 := fun x => (h s l x).2
    obtain ⟨ps, e1, e2⟩ := splitLoop_spec h s ls l _ hrest hs h1
    have hl : ∀ (a : K) (ls : List K) (ps : List S), Spec.ArePieces eval s a ls ps → ps.length = ls.length + 1 := by
      intro a ls
      induction ls generalizing a with
      | nil => rintro ps ⟨p, rfl, -⟩; rfl
      | cons b ls ih => rintro ps ⟨p, ps, rfl, -, h⟩; simp [ih b ps h]
    refine ⟨(split s l).1 :: ps, by simp only [e1, Option.map_some], ⟨_, ps, rfl, ?_, e2⟩, ?_⟩
    · intro x
      rw [(h s l x).1]
      congr 1
      ring
    · rw [List.length_cons, hl _ _ _ e2, ← hlen, List.length_cons]

/-- C45: neighbouring pieces meet: the end of a piece is the begin of the next one, the first one begins where the spline begins, the last one ends where it
ends. -/
theorem pieces_meet {eval : S → K → P} {s : S} (a : K) (ls : List K) (ps : List S) (h : Spec.ArePieces eval s a ls ps) (i : ℕ) (hi : i + 1 < ps.length) :
    eval ps[i] 1 = eval ps[i + 1] 0 := by
  induction ls generalizing a ps i with
  | nil =>
    obtain ⟨p, rfl, -⟩ := h
    simp at hi
  | cons l ls ih =>
    obtain ⟨p, ps, rfl, h1, h2⟩ := h
    cases i with
    | succ i =>
      simp only [List.getElem_cons_succ]
      exact ih l ps h2 i (by simpa using hi)
    | zero =>
      simp only [List.getElem_cons_zero, List.getElem_cons_succ]
      have hq : ∃ q b, ps[0]'(by simpa using hi) = q ∧ Spec.IsRestriction eval s q l b := by
        cases ls with
        | nil => obtain ⟨q, rfl, h3⟩ := h2; exact ⟨q, 1, rfl, h3⟩
        | cons b ls => obtain ⟨q, qs, rfl, h3, -⟩ := h2; exact ⟨q, b, rfl, h3⟩
      obtain ⟨q, b, e, h3⟩ := hq
      rw [e, h1, h3]
      congr 1
      ring

/-- C45: locations outside of the unit interval are rejected. -/
theorem split_rejects {split : S → K → S × S} (s : S) (locations : List K) (h : ∃ l ∈ locations, l < 0 ∨ 1 < l) : splitAt split s locations = none := by
  unfold splitAt
  split
  · rfl
  · rw [if_pos]
    obtain ⟨l, hl, h⟩ := h
    rw [List.any_eq_true]
    refine ⟨l, hl, ?_⟩
    rcases h with h | h <;> simp [h]

/-- functions of one variable are split exactly; three locations in any order are admissible -/
example : Spec.SplitsExactly (S := ℚ → ℚ) (K := ℚ) (fun s t => (fun x => s (t * x), fun x => s (t + (1 - t) * x))) (fun s x => s x) ∧
    (∀ l ∈ (([3/4, 1/4, 1] : List ℚ).insertionSort (· ≤ ·)).dropLast, l < 1) := ⟨fun s t x => ⟨rfl, rfl⟩, by decide +kernel⟩

/-- C45, where the code deviates: the end of the parametric interval is an accepted location, but if it is given twice the scaled location is not a
number. -/
theorem split_repeated_end_violates (split : S → K → S × S) (s : S) : splitAt split s [1, 1] = none := by
  unfold splitAt
  simp [List.insertionSort, splitLoop]

end Splinepy.Split
