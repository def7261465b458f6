/-!
Model of the memory behind the control points of non-rational splines: which arrays and cores exist, who keeps them alive, and where array assignments are written to.
`splinepy/spline.py`, `splinepy/bspline.py`, `splinepy/utils/data.py` (`PhysicalSpaceArray`), `src/py/py_spline.cpp` (`NewCore`), `include/splinepy/splines/bspline.hpp`
(a view on the memory of numpy), `include/splinepy/splines/bezier.inl` (a copy), `include/splinepy/utils/coordinate_pointers.hpp`, `src/py/py_multipatch.cpp`.

Simplifications: a row of control points is a value of a type `α`; degrees and knot vectors together are a value of a type `P`, of which only the number `count` of
control points they need matters here (the full checks are modelled in `Model/SplineCore.lean`). Spline objects and multipatches of the user are never deleted; arrays
can be released. Python frees an array as soon as nobody refers to it; the core of a spline is destroyed when no spline object and no multipatch has it.
`undefined` behaviour (access to freed memory) is `none`.
-/
namespace Splinepy.Lifetime

variable {α P : Type}

/-- `ControlPointPointers`: addresses of the rows in a block of memory, with the core they were made for. (include/splinepy/utils/coordinate_pointers.hpp 71-108) -/
structure Pointers where
  core : Nat
  block : Nat
  len : Nat
deriving DecidableEq

/-- A core spline: the block of memory its control points are in, whether it owns that memory (a `Bezier` copies, include/splinepy/splines/bezier.inl 39-64; a `BSpline`
uses the memory of the numpy array, include/splinepy/splines/bspline.hpp 161-165), and the pointers handed out before (include/splinepy/splines/splinepy_base.hpp 53). -/
structure Core (P : Type) where
  block : Nat
  owned : Bool
  props : P
  pointers : Option Nat
deriving DecidableEq

/-- An array: its memory, and for a `PhysicalSpaceArray` its `_source_ptr`. (splinepy/utils/data.py 33-70) -/
structure Arr where
  block : Nat
  source : Option Nat
deriving DecidableEq

/-- A spline object: its core, and `_data["control_points"]`, and the other entries of `_data` if a setter left them there. (splinepy/spline.py 396-433) -/
structure Obj (P : Type) where
  core : Option Nat
  saved : Option Arr
  props : Option P
deriving DecidableEq

/-- Everything that exists: contents of all memory blocks so far, cores so far, pointers so far, spline objects, arrays in variables of the user (`none`: released), and multipatches
with the cores they took from their patches. (src/py/py_multipatch.cpp 1084-1102) -/
structure State (α P : Type) where
  mem : List (List α) := []
  cores : List (Core P) := []
  pointers : List Pointers := []
  objs : List (Obj P) := []
  held : List (Option Arr) := []
  multis : List (List Nat) := []
deriving DecidableEq

/-- The core is not destroyed: a spline object or a multipatch has it. (`std::shared_ptr`, include/splinepy/py/py_spline.hpp 93-98, include/splinepy/py/py_multipatch.hpp 209) -/
def State.referenced (s : State α P) (c : Nat) : Bool := s.objs.any (fun o => o.core == some c) || s.multis.any (fun m => m.contains c)

/-- The block is in use: a core that is not destroyed owns it, or an array in `_data` of a spline object or of the user has it. (include/splinepy/splines/bspline.hpp 161-165: "make sure
to keep the pointer alive") -/
def State.alive (s : State α P) (b : Nat) : Bool :=
  (List.range s.cores.length).any (fun c => s.referenced c && (s.cores[c]?).any (fun k => k.owned && k.block == b)) ||
  s.objs.any (fun o => o.saved.any (fun a => a.block == b)) || s.held.any (fun a => a.any (fun a => a.block == b))

/-- Reading a block: undefined if it is freed. (include/splinepy/splines/bspline.hpp 356-359) -/
def State.load (s : State α P) (b : Nat) : Option (List α) := if s.alive b then s.mem[b]? else none

/-- The control points a core reads when it is evaluated. (include/splinepy/splines/bspline.hpp 356-359) -/
def State.loadCore (s : State α P) (c : Nat) : Option (List α) := (s.cores[c]?).bind (fun k => s.load k.block)

/-- The result of a call that has no undefined behaviour: the state afterwards, and whether it raised. (splinepy/spline.py 659-1134) -/
structure Res (α P : Type) where
  state : State α P
  raised : Bool
deriving DecidableEq

/-- New memory with the given contents. (numpy; splinepy/spline.py 343) -/
def alloc (s : State α P) (rows : List α) : State α P := { s with mem := s.mem ++ [rows] }

/-- Change the object `i`. (splinepy/spline.py 396-433) -/
def setObj (s : State α P) (i : Nat) (o : Obj P) : State α P := { s with objs := s.objs.set i o }

/-- `SplinepyControlPointPointers`: the pointers handed out before if their number is right, else new ones. (include/splinepy/splines/bspline.hpp 297-315, bezier.inl 122-146) -/
def corePointers (s : State α P) (c : Nat) (k : Core P) : State α P × Nat :=
  let n := (s.mem[k.block]?).elim 0 List.length
  match k.pointers.bind (fun q => (s.pointers[q]?).bind (fun p => if p.len = n then some q else none)) with
  | some q => (s, q)
  | none => ({ s with pointers := s.pointers ++ [⟨c, k.block, n⟩], cores := s.cores.set c { k with pointers := some s.pointers.length } }, s.pointers.length)

/-- Getter `control_points` with `_prepare_coordinates`: an array that is not yet connected gets the pointers of the core; if there is no array, it is filled with
`current_core_properties`. (splinepy/spline.py 183-221, 955-962) -/
def prepare (s : State α P) (i : Nat) : Option (State α P) :=
  match s.objs[i]? with
  | none => none
  | some o =>
    match o.core with
    | none => some s
    | some c =>
      match s.cores[c]? with
      | none => none
      | some k =>
        match o.saved with
        | some a =>
          if a.source.isSome then some s
          else
            let r := corePointers s c k
            some (setObj r.1 i { o with saved := some ⟨a.block, some r.2⟩ })
        | none =>
          (s.loadCore c).map (fun rows =>
            let r := corePointers (alloc s rows) c k
            setObj r.1 i { o with saved := some ⟨s.mem.length, some r.2⟩ })

/-- `_new_core(keep_properties=True, raise_=False, **_data)` for the object `i`: `NewCore` first keeps the array of control points without its pointers in `_data`, then checks, then replaces
the core. Nothing happens if properties are missing. (splinepy/spline.py 675-753, src/py/py_spline.cpp 48-229) -/
def newCore (count : P → Nat) (views : Bool) (s : State α P) (i : Nat) : Option (Res α P) :=
  match s.objs[i]? with
  | none => none
  | some o =>
    match o.saved, (o.props.or ((o.core.bind (fun c => s.cores[c]?)).map Core.props)) with
    | some a, some p =>
      match s.mem[a.block]? with
      | none => none
      | some rows =>
        let s1 := setObj s i { o with saved := some ⟨a.block, none⟩ }
        if rows.length ≠ count p then some ⟨s1, true⟩
        else if views then
          some ⟨setObj { s1 with cores := s1.cores ++ [⟨a.block, false, p, none⟩] } i ⟨some s1.cores.length, some ⟨a.block, none⟩, some p⟩, false⟩
        else
          let s2 := alloc s1 rows
          some ⟨setObj { s2 with cores := s2.cores ++ [⟨s1.mem.length, true, p, none⟩] } i ⟨some s2.cores.length, some ⟨a.block, none⟩, some p⟩, false⟩
    | _, _ => some ⟨s, false⟩

/-- Calls of the user. -/
inductive Op (α P : Type)
  /-- a constructor with degrees, knot vectors and control points: splinepy/spline.py 411-433 -/
  | new (p : P) (rows : List α)
  /-- `spline.degrees = …` or `spline.knot_vectors = …`: splinepy/spline.py 794-814, 854-876 -/
  | setProps (i : Nat) (p : P)
  /-- `spline.control_points = …`: splinepy/spline.py 978-989 -/
  | setCps (i : Nat) (rows : List α)
  /-- `spline.clear()`, or `None` assigned to a property: splinepy/spline.py 659-673 -/
  | clear (i : Nat)
  /-- `array = spline.control_points`: splinepy/spline.py 955-962 -/
  | read (i : Nat)
  /-- `del array` -/
  | release (j : Nat)
  /-- `array[row] = value`: splinepy/utils/data.py 172-190 -/
  | write (j row : Nat) (value : α)
  /-- `elevate_degrees`, `insert_knots`, `remove_knots`, `reduce_degrees`; `none`: a call of `insert_knots` that inserts nothing. splinepy/spline.py 1486-1541, splinepy/bspline.py 75-123,
  271-323 -/
  | modify (i : Nat) (result : Option (P × List α))
  /-- `type(spline)(spline=spline)`: splinepy/spline.py 403-409 -/
  | share (i : Nat)
  /-- `spline.copy()`: splinepy/spline.py 1647-1678 -/
  | copy (i : Nat)
  /-- `Multipatch(splines)`: src/py/py_multipatch.cpp 1084-1102 -/
  | multi (is : List Nat)
  /-- `spline.evaluate(…)`: splinepy/spline.py 1136-1158 -/
  | evaluate (i : Nat)
  /-- `multipatch.evaluate(…)`: src/py/py_multipatch.cpp 1396-1424 -/
  | evaluateMulti (m : Nat)

/-- Writing a row of a block. (src/utils/coordinate_pointers.cpp 29-50) -/
def store (s : State α P) (b row : Nat) (v : α) : State α P := { s with mem := s.mem.modify b (fun rows => rows.set row v) }

/-- Constructor: memory for a copy of the control points, a spline object, then `_new_core`; no object if that raises. (splinepy/spline.py 411-433, 343) -/
def construct (count : P → Nat) (views : Bool) (s : State α P) (p : P) (rows : List α) : Option (Res α P) :=
  let s1 := alloc s rows
  let s2 := { s1 with objs := s1.objs ++ [⟨none, some ⟨s.mem.length, none⟩, some p⟩] }
  (newCore count views s2 s.objs.length).map (fun r => if r.raised then ⟨s1, true⟩ else r)

/-- Effect of a call; `none`: undefined behaviour, or an object that does not exist. Class `BSpline`: `views`. (splinepy/spline.py 396-1134, 1486-1541, 1647-1678) -/
def step (count : P → Nat) (views : Bool) (s : State α P) : Op α P → Option (Res α P)
  | .new p rows => construct count views s p rows
  | .setProps i p => (s.objs[i]?).bind (fun o =>
      -- `_data["degrees"] = …` (splinepy/spline.py 808-811), then `_safe_new_core` with the getter of the control points (275-286)
      (prepare (setObj s i { o with props := some p }) i).bind (fun s1 => newCore count views s1 i))
  | .setCps i rows => (s.objs[i]?).bind (fun o =>
      -- `_safe_array_copy` (splinepy/spline.py 343), then `_safe_new_core` (275-286)
      newCore count views (setObj (alloc s rows) i { o with saved := some ⟨s.mem.length, none⟩ }) i)
  | .clear i => (s.objs[i]?).map (fun _ => ⟨setObj s i ⟨none, none, none⟩, false⟩)
  | .read i => (prepare s i).bind (fun s1 => (s1.objs[i]?).map (fun o => ⟨{ s1 with held := s1.held ++ [o.saved] }, false⟩))
  | .release j => some ⟨{ s with held := s.held.set j none }, false⟩
  | .write j row v => ((s.held[j]?).bind id).bind (fun a => (s.mem[a.block]?).bind (fun rows =>
      if rows.length ≤ row then some ⟨s, true⟩
      else
        let s1 := store s a.block row v
        match a.source.bind (fun q => (s.pointers[q]?).map (fun p => (q, p))) with
        | none => some ⟨s1, false⟩
        | some (q, p) =>
          -- a core that is destroyed sets `invalid_` of its last pointers: nothing more is written (splinepy_base.hpp 59-68, coordinate_pointers.cpp 30)
          if s.referenced p.core = false ∧ (s.cores[p.core]?).bind Core.pointers = some q then some ⟨s1, false⟩
          else if s.alive p.block then some ⟨store s1 p.block row v, false⟩ else none))
  | .modify i result => (s.objs[i]?).bind (fun o =>
      match o.core with
      | none => some ⟨s, true⟩
      | some c => (s.cores[c]?).bind (fun k =>
          match result with
          -- splinepy/bspline.py 121
          | none => some ⟨setObj s i ⟨o.core, none, none⟩, false⟩
          | some (p, rows) => (s.loadCore c).map (fun _ =>
              let s1 := alloc s rows
              ⟨setObj { s1 with cores := s1.cores.set c ⟨s.mem.length, true, p, k.pointers⟩ } i ⟨o.core, none, none⟩, false⟩)))
  | .share i => (s.objs[i]?).map (fun o => ⟨{ s with objs := s.objs ++ [o] }, false⟩)
  | .copy i => (s.objs[i]?).bind (fun o =>
      match o.core with
      | none => some ⟨s, true⟩
      | some c => (s.cores[c]?).bind (fun k => (s.loadCore c).bind (fun rows => construct count views s k.props rows)))
  | .multi is => match is.mapM (fun i => (s.objs[i]?).bind Obj.core) with
    | none => some ⟨s, true⟩
    | some cs => some ⟨{ s with multis := s.multis ++ [cs] }, false⟩
  | .evaluate i => (s.objs[i]?).bind (fun o =>
      match o.core with
      | none => some ⟨s, true⟩
      | some c => (s.loadCore c).map (fun _ => ⟨s, false⟩))
  | .evaluateMulti m => (s.multis[m]?).bind (fun cs => (cs.mapM (fun c => s.loadCore c)).map (fun _ => ⟨s, false⟩))

/-- A history of calls; exceptions are caught by the user. `none`: undefined behaviour. (splinepy/spline.py 396-1678) -/
def run (count : P → Nat) (views : Bool) (s : State α P) (ops : List (Op α P)) : Option (State α P) :=
  ops.foldlM (fun s op => (step count views s op).map Res.state) s

/-- The control points that `spline.evaluate` uses. (include/splinepy/splines/bspline.hpp 356-359) -/
def evaluated (s : State α P) (i : Nat) : Option (List α) := ((s.objs[i]?).bind Obj.core).bind (fun c => s.loadCore c)

/-- The rows an array of the user shows. (splinepy/utils/data.py 33-70) -/
def shown (s : State α P) (j : Nat) : Option (List α) := ((s.held[j]?).bind id).bind (fun a => s.mem[a.block]?)

end Splinepy.Lifetime
