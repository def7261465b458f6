import Mathlib.Algebra.Field.Basic
import Mathlib.Algebra.Order.Ring.Defs
import Mathlib.Algebra.BigOperators.Group.List.Basic

/-!
Which knot vectors belong to which splines: `KnotVector` objects are shared by reference between the parameter spaces of cores. `src/py/py_parameter_space.cpp`, `src/py/py_knot_vector.cpp`,
`include/splinepy/splines/helpers/extract.hpp` (boundaries use the knot vectors of the spline), `splinepy/spline.py` (getter and setters), `splinepy/bspline.py` (normalize_knot_vectors).

Simplifications: splines with knot vectors only; of the control points only the number matters; objects always have a core (no `clear`), and degrees are those of the core (degrees left behind by
a refused assignment are in `Model/SplineCore.lean`). Objects made by `type(s)(spline=s)` are left out (`Model/Lifetime.lean`). BSplineLib's operations enter by contract: refinements replace
the knots inside of the `KnotVector` objects, and evaluation takes the numbers of control points from the knot vectors. `none`: undefined behaviour, or an object that does not exist.
-/
namespace Splinepy.KnotSharing

variable {K : Type} [Field K] [LinearOrder K]

/-- A core: its parameter space, degrees, and the number of control points in its memory. (include/splinepy/splines/bspline.hpp 124-170) -/
structure Core where
  space : ℕ
  degrees : List ℕ
  ncps : ℕ
deriving DecidableEq

/-- `_data["knot_vectors"]`: nothing, arrays of a setter, or a `ParameterSpace`. (splinepy/spline.py 829-838, 865-874) -/
inductive Saved (K : Type)
  | none
  | arrays (kvs : List (List K))
  | space (p : ℕ)
deriving DecidableEq

/-- A spline object. (splinepy/spline.py 396-433) -/
structure Obj (K : Type) where
  core : ℕ
  saved : Saved K
deriving DecidableEq

/-- All `KnotVector` objects so far, all parameter spaces (lists of references to knot vectors), all cores, all spline objects. (src/py/py_parameter_space.cpp 37-40) -/
structure State (K : Type) where
  kvs : List (List K) := []
  spaces : List (List ℕ) := []
  cores : List Core := []
  objs : List (Obj K) := []
deriving DecidableEq

/-- The number of control points that degrees and knot vectors need. (src/py/py_spline.cpp 141, include/splinepy/splines/bspline.hpp 155) -/
def needed (degrees : List ℕ) (kvs : List (List K)) : ℕ := ((degrees.zip kvs).map fun e => e.2.length - e.1 - 1).prod

/-- The knots are in order, and the first one is at least -1. (src/py/py_spline.cpp 100-124) -/
def inOrder : K → List K → Bool
  | _, [] => true
  | prev, k :: ks => decide (prev ≤ k) && inOrder k ks

/-- `NewCore` accepts. (src/py/py_spline.cpp 76-165) -/
def accepts (degrees : List ℕ) (kvs : List (List K)) (n : ℕ) : Bool :=
  decide (kvs.length = degrees.length) && (kvs.all fun kv => inOrder (-1) kv) && ((degrees.zip kvs).all fun e => decide (2 * (e.1 + 1) ≤ e.2.length)) && decide (n = needed degrees kvs)

/-- The knot vectors of a list of references. (include/splinepy/splines/bspline.hpp 143-160) -/
def State.read (s : State K) (ids : List ℕ) : List (List K) := ids.map fun v => s.kvs.getD v []

/-- What the spline object `i` is evaluated with: degrees, knot vectors, number of control points. (splinepy/spline.py 1136-1158) -/
def State.described (s : State K) (i : ℕ) : Option (List ℕ × List (List K) × ℕ) :=
  (s.objs[i]?).bind fun o => (s.cores[o.core]?).bind fun c => (s.spaces[c.space]?).map fun ids => (c.degrees, s.read ids, c.ncps)

/-- `CreateBase`: new knot vectors, a new parameter space, a new core. (include/splinepy/splines/bspline.hpp 124-170, nurbs.hpp 116-166) -/
def State.fresh (s : State K) (degrees : List ℕ) (kvs : List (List K)) (n : ℕ) : State K :=
  { s with kvs := s.kvs ++ kvs, spaces := s.spaces ++ [List.range' s.kvs.length kvs.length], cores := s.cores ++ [⟨s.spaces.length, degrees, n⟩] }

/-- Replace the object `i`. (splinepy/spline.py 396-433) -/
def State.setObj (s : State K) (i : ℕ) (o : Obj K) : State K := { s with objs := s.objs.set i o }

/-- Values written into the `KnotVector` objects. (src/py/py_knot_vector.cpp 96-152, src/py/py_parameter_space.cpp 143-147) -/
def State.writeAll (s : State K) (ids : List ℕ) (kvs : List (List K)) : State K := (ids.zip kvs).foldl (fun s e => { s with kvs := s.kvs.set e.1 e.2 }) s

/-- Result of a call: the state, and whether it raised. -/
structure Res (K : Type) where
  state : State K
  raised : Bool
deriving DecidableEq

/-- Getter `knot_vectors`: the saved parameter space, else the one of the core, which is saved. (splinepy/spline.py 829-838) -/
def State.getSpace (s : State K) (i : ℕ) (o : Obj K) (c : Core) : State K × ℕ :=
  match o.saved with
  | .space p => (s, p)
  | _ => (s.setObj i { o with saved := .space c.space }, c.space)

/-- Calls. -/
inductive Op (K : Type)
  /-- `BSpline(degrees, knot_vectors, control_points)`, `NURBS(…)`: splinepy/spline.py 411-433 -/
  | new (degrees : List ℕ) (kvs : List (List K)) (ncps : ℕ)
  /-- `spline.copy()`: splinepy/spline.py 1647-1678 -/
  | copy (i : ℕ)
  /-- `spline.knot_vectors = …`: splinepy/spline.py 854-876 -/
  | setKvs (i : ℕ) (kvs : List (List K))
  /-- `spline.degrees = …`: splinepy/spline.py 794-814 -/
  | setDegrees (i : ℕ) (degrees : List ℕ)
  /-- `spline.control_points = …` (or weights): splinepy/spline.py 978-989 -/
  | setCps (i ncps : ℕ)
  /-- `spline.knot_vectors[d] = array`, or `spline.knot_vectors[d][…] = …` with the resulting knots: src/py/py_parameter_space.cpp 134-152, src/py/py_knot_vector.cpp 96-152 -/
  | edit (i d : ℕ) (kv : List K)
  /-- `a.knot_vectors[d] = b.knot_vectors[e]`: src/py/py_parameter_space.cpp 118-132 -/
  | assignObject (i d j e : ℕ)
  /-- `spline.normalize_knot_vectors()`: splinepy/bspline.py 325-345 -/
  | normalize (i : ℕ)
  /-- `insert_knots`, `remove_knots`, `elevate_degrees`, `reduce_degrees` with the resulting degrees and knots: splinepy/spline.py 1486-1541, splinepy/bspline.py 75-123, 271-323 -/
  | refine (i : ℕ) (degrees : List ℕ) (kvs : List (List K))
  /-- `spline.extract.boundaries([b])[0]`: splinepy/helpme/extract.py 540-545 -/
  | boundary (i b : ℕ)
  /-- `spline.evaluate(…)`: splinepy/spline.py 1136-1158 -/
  | evaluate (i : ℕ)

/-- `KnotVector::Scale` to `[0, 1]`. (src/py/py_knot_vector.cpp 151-155; splinepy/bspline.py 345) -/
def scale (kv : List K) : List K := kv.map fun x => (x - kv.headD 0) / (kv.getLastD 0 - kv.headD 0)

/-- A core in place of the one of the object `i`, if `NewCore` accepts. (src/py/py_spline.cpp 48-229) -/
def State.newCore (s : State K) (i : ℕ) (saved : Saved K) (degrees : List ℕ) (kvs : List (List K)) (n : ℕ) : Res K :=
  if accepts degrees kvs n then ⟨(s.fresh degrees kvs n).setObj i ⟨s.cores.length, saved⟩, false⟩ else ⟨s, true⟩

/-- A new object with a new core. (splinepy/spline.py 411-433) -/
def State.construct (s : State K) (degrees : List ℕ) (kvs : List (List K)) (n : ℕ) : Res K :=
  if accepts degrees kvs n then ⟨{ s.fresh degrees kvs n with objs := s.objs ++ [⟨s.cores.length, .none⟩] }, false⟩ else ⟨s, true⟩

/-- Effect of a call. (see `Op`) -/
def step (s : State K) : Op K → Option (Res K)
  | .new degrees kvs n => some (s.construct degrees kvs n)
  -- control points are read with the numbers from the knot vectors (src/py/py_spline.cpp 258-305)
  | .copy i => (s.described i).bind fun x => if x.2.2 < needed x.1 x.2.1 then none else some (s.construct x.1 x.2.1 x.2.2)
  | .setKvs i kvs => (s.objs[i]?).bind fun o => (s.cores[o.core]?).map fun c =>
      -- splinepy/spline.py 858-862
      if kvs.length ≠ c.degrees.length then ⟨s, true⟩ else (s.setObj i { o with saved := .arrays kvs }).newCore i (.arrays kvs) c.degrees kvs c.ncps
  | .setDegrees i degrees => (s.objs[i]?).bind fun o => (s.cores[o.core]?).bind fun c =>
      let r := s.getSpace i o c
      (r.1.spaces[r.2]?).map fun ids => r.1.newCore i (.space r.2) degrees (r.1.read ids) c.ncps
  | .setCps i n => (s.objs[i]?).bind fun o => (s.cores[o.core]?).bind fun c =>
      let r := s.getSpace i o c
      (r.1.spaces[r.2]?).map fun ids => r.1.newCore i (.space r.2) c.degrees (r.1.read ids) n
  | .edit i d kv => (s.objs[i]?).bind fun o => (s.cores[o.core]?).bind fun c =>
      let r := s.getSpace i o c
      (r.1.spaces[r.2]?).map fun ids =>
        match ids[d]? with
        | none => ⟨r.1, true⟩
        | some v => if (r.1.kvs.getD v []).length ≠ kv.length then ⟨r.1, true⟩ else ⟨r.1.writeAll [v] [kv], !inOrder (kv.headD 0) kv⟩
  | .assignObject i d j e => (s.objs[i]?).bind fun o => (s.cores[o.core]?).bind fun c =>
      let r := s.getSpace i o c
      (r.1.objs[j]?).bind fun o' => (r.1.cores[o'.core]?).bind fun c' =>
        let r' := r.1.getSpace j o' c'
        (r'.1.spaces[r.2]?).bind fun ids => (r'.1.spaces[r'.2]?).map fun ids' =>
          match ids[d]?, ids'[e]? with
          | some v, some w => if (r'.1.kvs.getD v []).length ≠ (r'.1.kvs.getD w []).length then ⟨r'.1, true⟩ else ⟨{ r'.1 with spaces := r'.1.spaces.set r.2 (ids.set d w) }, false⟩
          | _, _ => ⟨r'.1, true⟩
  | .normalize i => (s.objs[i]?).bind fun o => (s.cores[o.core]?).bind fun c =>
      let r := s.getSpace i o c
      (r.1.spaces[r.2]?).map fun ids => ⟨r.1.writeAll ids ((r.1.read ids).map scale), false⟩
  | .refine i degrees kvs => (s.objs[i]?).bind fun o => (s.cores[o.core]?).bind fun c => (s.spaces[c.space]?).bind fun ids =>
      if c.ncps ≠ needed c.degrees (s.read ids) then none
      else if kvs.length ≠ ids.length ∨ degrees.length ≠ ids.length then some ⟨s, true⟩
      else some ⟨({ s with cores := s.cores.set o.core ⟨c.space, degrees, needed degrees kvs⟩ }.writeAll ids kvs).setObj i ⟨o.core, .none⟩, false⟩
  | .boundary i b => (s.objs[i]?).bind fun o => (s.cores[o.core]?).bind fun c => (s.spaces[c.space]?).bind fun ids =>
      -- src/py/py_spline_extensions.cpp 160-190; extract.hpp 46-56 (curves are rejected)
      if ids.length ≤ 1 ∨ 2 * ids.length ≤ b then some ⟨s, true⟩
      else if c.ncps < needed c.degrees (s.read ids) then none
      else
        -- extract.hpp 68-76: "creates a new parameter space with same shared pointers", 80-90: as many control points as there are on the face
        let ids' := ids.eraseIdx (b / 2)
        let degrees' := c.degrees.eraseIdx (b / 2)
        some ⟨{ s with spaces := s.spaces ++ [ids'], cores := s.cores ++ [⟨s.spaces.length, degrees', needed degrees' (s.read ids')⟩], objs := s.objs ++ [⟨s.cores.length, .none⟩] }, false⟩
  -- control points are addressed with the numbers from the knot vectors: beyond the memory if there are fewer
  | .evaluate i => (s.described i).bind fun x => if x.2.2 < needed x.1 x.2.1 then none else some ⟨s, false⟩

/-- A history of calls; exceptions are caught. -/
def run (s : State K) (ops : List (Op K)) : Option (State K) := ops.foldlM (fun s op => (step s op).map Res.state) s

end Splinepy.KnotSharing
