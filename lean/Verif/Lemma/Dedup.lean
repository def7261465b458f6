import Lean

/-!
`dedup_goals`: goals with the same context and the same statement are solved once. Used for long conjunctions.
-/

open Lean Elab Tactic in
/-- solve equal goals once -/
elab "dedup_goals" : tactic => do
  let mut seen : Std.HashMap Expr MVarId := {}
  let mut rest : Array MVarId := #[]
  for g in ← getUnsolvedGoals do
    let t ← instantiateMVars (← g.getType)
    match seen[t]? with
    | some m => g.assign (mkMVar m)
    | none =>
      seen := seen.insert t g
      rest := rest.push g
  setGoals rest.toList
