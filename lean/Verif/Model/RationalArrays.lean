import Mathlib.Algebra.Field.Basic

/-!
Model of the memory behind the control points and weights of a rational spline (`RationalBezier`, `NURBS`): the core has its own homogeneous coordinates (weighted control points and
weights); the arrays of the user are copies that write through to it with pointers. `splinepy/spline.py`, `splinepy/utils/data.py` (`PhysicalSpaceArray`), `src/py/py_spline.cpp` (`NewCore`),
`include/splinepy/splines/nurbs.hpp`, `include/splinepy/splines/rational_bezier.inl`, `src/utils/coordinate_pointers.cpp`.

Simplifications: one spline object (rational cores copy what they are given, so that splines have no memory in common, unless one is made with `type(s)(spline=s)` from the other, or is a
patch of a multipatch, which is not modelled here); coordinates are elements of a field; degrees and knot vectors together are a value of a type `P`, of which only the number `count` of
control points matters; arrays are assigned to row by row. Access to freed memory is `none`. Division by a weight zero is not modelled as such (the theorems assume nonzero weights).
-/
namespace Splinepy.RationalArrays

variable {K P : Type} [Field K]

/-- A homogeneous coordinate: the weighted control point, and the weight. (include/splinepy/splines/nurbs.hpp 336-343) -/
abbrev Row (K : Type) := List K × K

/-- What the core makes of a control point and its weight. (include/splinepy/splines/nurbs.hpp 150-165, rational_bezier.inl 52-95) -/
def weigh (p : List K) (w : K) : Row K := (p.map (· * w), w)

/-- The control point of a homogeneous coordinate. (include/splinepy/splines/nurbs.hpp 288-298, rational_bezier.inl 113-130) -/
def project (r : Row K) : List K := r.1.map (· * (1 / r.2))

/-- `ControlPointPointers` with their `WeightPointers`: addresses in a block of homogeneous coordinates, and the core they were made by. (include/splinepy/utils/coordinate_pointers.hpp
71-147) -/
structure Pointers where
  core : ℕ
  block : ℕ
  len : ℕ
deriving DecidableEq

/-- A core: its block of homogeneous coordinates, degrees and knots, and the pointers handed out last. (include/splinepy/splines/splinepy_base.hpp 51-54) -/
structure Core (P : Type) where
  block : ℕ
  props : P
  pointers : Option ℕ
deriving DecidableEq

/-- An array of control points or of weights: its memory, the pointers if it is a `PhysicalSpaceArray`, and numpy's flag. (splinepy/utils/data.py 33-95) -/
structure Arr where
  block : ℕ
  source : Option ℕ
  writable : Bool
deriving DecidableEq

/-- Everything that exists: blocks of homogeneous coordinates, cores and pointers made so far; the current core (all others are destroyed); numpy's memory for control points and for
weights; `_data` of the spline; arrays in variables of the user (`none`: released). -/
structure State (K P : Type) where
  blocks : List (List (Row K)) := []
  cores : List (Core P) := []
  pointers : List Pointers := []
  core : Option ℕ := none
  cmem : List (List (List K)) := []
  wmem : List (List K) := []
  savedC : Option Arr := none
  savedW : Option Arr := none
  props : Option P := none
  heldC : List (Option Arr) := []
  heldW : List (Option Arr) := []
deriving DecidableEq

/-- Result of a call without undefined behaviour: the state afterwards, and whether it raised. -/
structure Res (K P : Type) where
  state : State K P
  raised : Bool
deriving DecidableEq

/-- The current core. (include/splinepy/py/py_spline.hpp 93-98) -/
def State.current (s : State K P) : Option (Core P) := s.core.bind fun c => s.cores[c]?

/-- The homogeneous coordinates that are evaluated. (include/splinepy/splines/nurbs.hpp 370-380) -/
def State.coordinates (s : State K P) : Option (List (Row K)) := s.current.bind fun k => s.blocks[k.block]?

/-- The block belongs to the core that exists. (include/splinepy/splines/nurbs.hpp 150-165: the core owns its coordinates) -/
def State.alive (s : State K P) (b : ℕ) : Bool := s.current.any fun k => k.block == b

/-- The core that made the pointers is destroyed, and set their `invalid_`, which it does for the pointers it handed out last. (include/splinepy/splines/splinepy_base.hpp 59-68) -/
def State.invalid (s : State K P) (q : ℕ) (p : Pointers) : Bool := s.core != some p.core && ((s.cores[p.core]?).bind Core.pointers == some q)

/-- The `ControlPointPointers` still exist: the core has them, or an array of control points. (include/splinepy/utils/coordinate_pointers.hpp 115-118: `weak_ptr`) -/
def State.locked (s : State K P) (q : ℕ) : Bool :=
  s.current.any (fun k => k.pointers == some q) || s.savedC.any (fun a => a.source == some q) || s.heldC.any (fun a => a.any fun a => a.source == some q)

/-- `SplinepyWeightedControlPointPointers`: the pointers handed out before if their number is right, else new ones. (include/splinepy/splines/nurbs.hpp 313-350, rational_bezier.inl
134-170; src/py/py_spline.cpp 313-331) -/
def getPointers (s : State K P) (c : ℕ) (k : Core P) : State K P × ℕ :=
  let n := (s.blocks[k.block]?).elim 0 List.length
  match k.pointers.bind (fun q => (s.pointers[q]?).bind (fun p => if p.len = n then some q else none)) with
  | some q => (s, q)
  | none => ({ s with pointers := s.pointers ++ [⟨c, k.block, n⟩], cores := s.cores.set c { k with pointers := some s.pointers.length } }, s.pointers.length)

/-- A view with pointers; a view of a `PhysicalSpaceArray` is read-only. (splinepy/utils/data.py 91-95, splinepy/spline.py 214-221) -/
def connect (a : Arr) (q : ℕ) : Arr := ⟨a.block, some q, a.writable && a.source.isNone⟩

/-- `_prepare_coordinates`: if one of the arrays is missing both are read from the core; both are connected. (splinepy/spline.py 183-221) -/
def prepare (s : State K P) : Option (State K P) :=
  match s.core with
  | none => some s
  | some c => (s.cores[c]?).bind fun k => (s.blocks[k.block]?).map fun rows =>
      match s.savedC, s.savedW with
      | some a, some b =>
        let r := getPointers s c k
        { r.1 with savedC := some (connect a r.2), savedW := some (connect b r.2) }
      | _, _ =>
        let r := getPointers { s with cmem := s.cmem ++ [rows.map project], wmem := s.wmem ++ [rows.map Prod.snd] } c k
        { r.1 with savedC := some ⟨s.cmem.length, some r.2, true⟩, savedW := some ⟨s.wmem.length, some r.2, true⟩ }

/-- Is it a `PhysicalSpaceArray`? (splinepy/spline.py 957-960) -/
def connected (a : Option Arr) : Bool := a.any fun a => a.source.isSome

/-- Getter `control_points`. (splinepy/spline.py 955-962) -/
def getC (s : State K P) : Option (State K P) := if s.core.isSome && !connected s.savedC then prepare s else some s

/-- Getter `weights`. (splinepy/spline.py 1102-1109) -/
def getW (s : State K P) : Option (State K P) := if s.core.isSome && !connected s.savedW then prepare s else some s

/-- An array as `NewCore` keeps it in `_data`: the same memory, a plain array. (src/py/py_spline.cpp 72, 203) -/
def plain (a : Arr) : Arr := { a with source := none }

/-- `_new_core(keep_properties=True, raise_=False, **_data)`: keeps the control points as a plain array, checks their number, keeps the weights as a plain array, checks their number, makes a
core. Nothing happens if properties are missing. (splinepy/spline.py 282-286, 675-753; src/py/py_spline.cpp 48-229) -/
def newCore (count : P → ℕ) (s : State K P) : Option (Res K P) :=
  match s.savedC, s.savedW, s.props.or (s.current.map Core.props) with
  | some a, some b, some p => (s.cmem[a.block]?).bind fun cps => (s.wmem[b.block]?).map fun ws =>
      let s1 := { s with savedC := some (plain a), props := some p }
      if cps.length ≠ count p then ⟨s1, true⟩
      else
        let s2 := { s1 with savedW := some (plain b) }
        if ws.length ≠ cps.length then ⟨s2, true⟩
        else ⟨{ s2 with blocks := s.blocks ++ [List.zipWith weigh cps ws], cores := s.cores ++ [⟨s.blocks.length, p, none⟩], core := some s.cores.length }, false⟩
  | _, _, _ => some ⟨s, false⟩

/-- Calls. -/
inductive Op (K P : Type)
  /-- `NURBS(degrees, knot_vectors, control_points, weights)`, `RationalBezier(…)`; the former spline is deleted: splinepy/spline.py 411-433 -/
  | new (p : P) (cps : List (List K)) (ws : List K)
  /-- `spline.degrees = …`, `spline.knot_vectors = …`: splinepy/spline.py 794-814, 854-876 -/
  | setProps (p : P)
  /-- `spline.control_points = …` (another array than its own): splinepy/spline.py 978-989 -/
  | setCps (cps : List (List K))
  /-- `spline.weights = …` (another array than its own): splinepy/spline.py 1124-1134 -/
  | setWs (ws : List K)
  /-- `array = spline.control_points`: splinepy/spline.py 955-962 -/
  | readC
  /-- `array = spline.weights`: splinepy/spline.py 1102-1109 -/
  | readW
  /-- `del array` -/
  | releaseC (j : ℕ)
  | releaseW (j : ℕ)
  /-- `array[row] = value`: splinepy/utils/data.py 172-190 -/
  | writeC (j row : ℕ) (v : List K)
  /-- `array[row] = value`; the array is a reshaped view, so that all rows are written: splinepy/utils/data.py 74-85, 172-179 -/
  | writeW (j row : ℕ) (v : K)
  /-- `elevate_degrees`, `insert_knots`, `remove_knots`, `reduce_degrees`; `none`: a call that changes nothing but drops `_data`. splinepy/spline.py 1486-1541, splinepy/bspline.py 75-123, 271-323 -/
  | refine (result : Option (P × List (List K) × List K))
  /-- `spline.evaluate(…)`: splinepy/spline.py 1136-1158 -/
  | evaluate

/-- `ControlPointPointers::SetRow` on the coordinates. (src/utils/coordinate_pointers.cpp 29-50) -/
def storeC (rows : List (Row K)) (row : ℕ) (v : List K) : List (Row K) := rows.modify row fun r => (v.map (· * r.2), r.2)

/-- `WeightPointers::SetRow` on the coordinates. (src/utils/coordinate_pointers.cpp 85-112) -/
def storeW (rows : List (Row K)) (row : ℕ) (v : K) : List (Row K) := rows.modify row fun r => (r.1.map (· * (v / r.2)), v)

/-- `WeightPointers::Sync`: all rows of the array. (src/utils/coordinate_pointers.cpp 114-121) -/
def syncW (rows : List (Row K)) (ws : List K) : List (Row K) := (List.range ws.length).foldl (fun rows i => storeW rows i (ws.getD i 0)) rows

/-- Effect of a call. (see `Op`) -/
def step (count : P → ℕ) (s : State K P) : Op K P → Option (Res K P)
  | .new p cps ws =>
      let s1 := { s with core := none, cmem := s.cmem ++ [cps], wmem := s.wmem ++ [ws], savedC := some ⟨s.cmem.length, none, true⟩, savedW := some ⟨s.wmem.length, none, true⟩, props := some p }
      (newCore count s1).map fun r => if r.raised then ⟨{ s1 with savedC := none, savedW := none, props := none }, true⟩ else r
  | .setProps p => (getC { s with props := some p }).bind fun s1 => (getW s1).bind fun s2 => newCore count s2
  | .setCps cps =>
      -- `_safe_array_copy` (splinepy/spline.py 289-345)
      match s.savedW.map fun b => (b, (s.wmem[b.block]?).getD []) with
      | some (b, ws) =>
        if ws.length ≠ cps.length then some ⟨s, true⟩
        else
          let s1 := if b.source.isSome then { s with wmem := s.wmem ++ [ws], savedW := some ⟨s.wmem.length, none, true⟩ } else s
          (getW { s1 with cmem := s1.cmem ++ [cps], savedC := some ⟨s1.cmem.length, none, true⟩ }).bind (newCore count)
      | none => (getW { s with cmem := s.cmem ++ [cps], savedC := some ⟨s.cmem.length, none, true⟩ }).bind (newCore count)
  | .setWs ws =>
      match s.savedC.map fun a => (a, (s.cmem[a.block]?).getD []) with
      | some (a, cps) =>
        if cps.length ≠ ws.length then some ⟨s, true⟩
        else
          let s1 := if a.source.isSome then { s with cmem := s.cmem ++ [cps], savedC := some ⟨s.cmem.length, none, true⟩ } else s
          (getC { s1 with wmem := s1.wmem ++ [ws], savedW := some ⟨s1.wmem.length, none, true⟩ }).bind (newCore count)
      | none => (getC { s with wmem := s.wmem ++ [ws], savedW := some ⟨s.wmem.length, none, true⟩ }).bind (newCore count)
  | .readC => (getC s).map fun s1 => ⟨{ s1 with heldC := s1.heldC ++ [s1.savedC] }, false⟩
  | .readW => (getW s).map fun s1 => ⟨{ s1 with heldW := s1.heldW ++ [s1.savedW] }, false⟩
  | .releaseC j => some ⟨{ s with heldC := s.heldC.set j none }, false⟩
  | .releaseW j => some ⟨{ s with heldW := s.heldW.set j none }, false⟩
  | .writeC j row v => ((s.heldC[j]?).bind id).bind fun a => (s.cmem[a.block]?).bind fun cps =>
      if a.writable = false ∨ cps.length ≤ row then some ⟨s, true⟩
      else
        let s1 := { s with cmem := s.cmem.set a.block (cps.set row v) }
        match a.source.bind fun q => (s.pointers[q]?).map fun p => (q, p) with
        | none => some ⟨s1, false⟩
        | some (q, p) =>
          if s.invalid q p then some ⟨s1, false⟩
          else if s.alive p.block && row < p.len then some ⟨{ s1 with blocks := s1.blocks.modify p.block fun rows => storeC rows row v }, false⟩ else none
  | .writeW j row v => ((s.heldW[j]?).bind id).bind fun a => (s.wmem[a.block]?).bind fun ws =>
      if a.writable = false ∨ ws.length ≤ row then some ⟨s, true⟩
      else
        let s1 := { s with wmem := s.wmem.set a.block (ws.set row v) }
        match a.source.bind fun q => (s.pointers[q]?).map fun p => (q, p) with
        | none => some ⟨s1, false⟩
        | some (q, p) =>
          if s.invalid q p then some ⟨s1, false⟩
          -- "Missing related control point pointers"
          else if !s.locked q then some ⟨s1, true⟩
          else if s.alive p.block && p.len == ws.length then some ⟨{ s1 with blocks := s1.blocks.modify p.block fun rows => syncW rows (ws.set row v) }, false⟩ else none
  | .refine result =>
      match s.core with
      | none => some ⟨s, true⟩
      | some c => (s.cores[c]?).map fun k =>
          let s1 := { s with savedC := none, savedW := none, props := none }
          match result with
          | none => ⟨s1, false⟩
          | some (p, cps, ws) => ⟨{ s1 with blocks := s.blocks ++ [List.zipWith weigh cps ws], cores := s.cores.set c ⟨s.blocks.length, p, k.pointers⟩ }, false⟩
  | .evaluate => match s.core with
      | none => some ⟨s, true⟩
      | some _ => s.coordinates.map fun _ => ⟨s, false⟩

/-- A history of calls; exceptions are caught. -/
def run (count : P → ℕ) (s : State K P) (ops : List (Op K P)) : Option (State K P) := ops.foldlM (fun s op => (step count s op).map Res.state) s

/-- The rows an array of control points in a variable of the user shows. (splinepy/utils/data.py 33-70) -/
def shownC (s : State K P) (j : ℕ) : Option (List (List K)) := ((s.heldC[j]?).bind id).bind fun a => s.cmem[a.block]?

/-- The rows an array of weights shows. (splinepy/utils/data.py 33-70) -/
def shownW (s : State K P) (j : ℕ) : Option (List K) := ((s.heldW[j]?).bind id).bind fun a => s.wmem[a.block]?

end Splinepy.RationalArrays
