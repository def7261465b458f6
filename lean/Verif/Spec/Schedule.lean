import Mathlib.Data.List.Perm.Basic

/-! Specification of concurrent execution: a schedule picks, step by step, any thread that still has work. -/
namespace Splinepy.Spec

/-- `Schedule threads trace`: `trace` is a possible global order of the atomic actions of `threads`
(each thread in its program order, otherwise arbitrary interleaving). -/
inductive Schedule {α : Type*} : List (List α) → List α → Prop
  | done (ts : List (List α)) (h : ∀ t ∈ ts, t = []) : Schedule ts []
  | step (pre post : List (List α)) (x : α) (xs : List α) (tr : List α)
      (h : Schedule (pre ++ xs :: post) tr) : Schedule (pre ++ (x :: xs) :: post) (x :: tr)

end Splinepy.Spec
