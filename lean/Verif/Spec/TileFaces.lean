import Mathlib.Logic.Relation
import Verif.Spec.Tiles

/-!
Specification: when two patches have a face in common, and what it means that the patches of a tile hang together. Two faces are the same if they have the same control points, up to
turning or mirroring the parameter domain of the face.
-/

namespace Splinepy.Tiles.Spec

/-- the control points of a face with `a` times `b` control points, read with the two directions exchanged, or one of them reversed -/
def turn {α : Type} [Inhabited α] (a b : ℕ) (swap reverseA reverseB : Bool) (f : List α) : List α :=
  let get := fun i j => f.getD ((if reverseA then a - 1 - i else i) + a * (if reverseB then b - 1 - j else j)) default
  if swap then (List.range a).flatMap fun i => (List.range b).map fun j => get i j else (List.range b).flatMap fun j => (List.range a).map fun i => get i j

/-- a face: its numbers of control points and its control points; all ways to read it. An edge of a planar patch has one direction only, an end of a curve none. -/
def readings {α : Type} [Inhabited α] (f : List ℕ × List α) : List (List ℕ × List α) :=
  match f.1 with
  | [] => [f]
  | [a] => [false, true].map fun r => ([a], turn a 1 false r false f.2)
  | [a, b] => [false, true].flatMap fun s => [false, true].flatMap fun r => [false, true].map fun q => (if s then [b, a] else [a, b], turn a b s r q f.2)
  | _ => []

/-- the faces of a patch, with their numbers of control points -/
def sides {K : Type} (P : Patch K) : List (List ℕ × List (List K)) :=
  (List.range P.degrees.length).flatMap fun d => [((P.degrees.eraseIdx d).map (· + 1), face P d false), ((P.degrees.eraseIdx d).map (· + 1), face P d true)]

/-- a face of `P` is a face of `Q` -/
def Shares {K : Type} (P Q : Patch K) : Prop := ∃ f ∈ sides P, ∃ g ∈ sides Q, g ∈ readings f

instance {K : Type} [DecidableEq K] (P Q : Patch K) : Decidable (Shares P Q) := by unfold Shares; infer_instance

/-- patches `i` and `j` of the tile have a face in common -/
def Adjacent {K : Type} (t : List (Patch K)) (i j : ℕ) : Prop := ∃ P Q, t[i]? = some P ∧ t[j]? = some Q ∧ (Shares P Q ∨ Shares Q P)

/-- From every patch of the tile every other one is reached through common faces. -/
def Connected {K : Type} (t : List (Patch K)) : Prop := ∀ i j, i < t.length → j < t.length → Relation.ReflTransGen (Adjacent t) i j

/-- Neighbours along `axis`, as in `Joins`, but the common faces may be numbered differently. -/
def Meets {K : Type} [Field K] (t u : List (Patch K)) (axis : ℕ) : Prop :=
  (∀ f ∈ t.flatMap sides, OnPlane f.2 axis 1 → ∃ g ∈ u.flatMap sides, OnPlane g.2 axis 0 ∧ (g.1, g.2.map fun x => x.set axis 1) ∈ readings f) ∧
  (∀ g ∈ u.flatMap sides, OnPlane g.2 axis 0 → ∃ f ∈ t.flatMap sides, OnPlane f.2 axis 1 ∧ (f.1, f.2.map fun x => x.set axis 0) ∈ readings g)

/-- the face lies in one of the six sides of the unit cell -/
def OnCell {K : Type} [Field K] (f : List (List K)) : Prop := ∃ axis < 3, OnPlane f axis 0 ∨ OnPlane f axis 1

/-- No face is free: each face of each patch lies in a side of the unit cell, or is a face of another patch. -/
def Sealed {K : Type} [Field K] (t : List (Patch K)) : Prop :=
  ∀ (i : ℕ) (P : Patch K), t[i]? = some P → ∀ f ∈ sides P, OnCell f.2 ∨ ∃ (j : ℕ) (Q : Patch K), j ≠ i ∧ t[j]? = some Q ∧ ∃ g ∈ sides Q, g ∈ readings f

end Splinepy.Tiles.Spec
