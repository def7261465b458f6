import Mathlib.Tactic.TypeStar
/-!
Specification of "all combinations" of a list of lists, in the two orders used by the code.
-/
namespace Splinepy.Spec

/-- all combinations, first list running fastest -/
def firstFastest {α : Type*} : List (List α) → List (List α)
  | [] => [[]]
  | a :: as => (firstFastest as).flatMap (fun tail => a.map (fun x => x :: tail))

/-- all combinations, last list running fastest -/
def lastFastest {α : Type*} : List (List α) → List (List α)
  | [] => [[]]
  | a :: as => a.flatMap (fun x => (lastFastest as).map (fun tail => x :: tail))

example : firstFastest [[1, 2, 3], [10, 20]] = [[1, 10], [2, 10], [3, 10], [1, 20], [2, 20], [3, 20]] := rfl
example : lastFastest [[1, 2, 3], [10, 20]] = [[1, 10], [1, 20], [2, 10], [2, 20], [3, 10], [3, 20]] := rfl

end Splinepy.Spec
