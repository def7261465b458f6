import Verif.Model.Create
import Mathlib.Algebra.Order.Field.Basic

/-!
Model of splinepy/helpme/ffd.py and of `normalize_knot_vectors`, splinepy/bspline.py 325-345.
-/
namespace Splinepy.Ffd
open Splinepy.Index (Spline)
open Splinepy.Create

variable {K : Type} [Field K] [LinearOrder K]

/-- `KnotVector.scale(0, 1)`, bound in src/py/py_knot_vector.cpp 152-156. The function is in BSplineLib, which is not part of the repository; by its
documentation it scales the knots linearly such that the first and the last one become the given ones. -/
def scaleKnotVector (kv : List K) : List K := kv.map fun k => (k - kv.headD 0) / (kv.getLastD 0 - kv.headD 0)

/-- `normalize_knot_vectors`, bspline.py 341-345, of a spline with knot vectors; without knot vectors (ffd.py 224-226) nothing is scaled. -/
def normalizeKnots (s : Spline K (List K)) : Spline K (List K) := { s with knotVectors := s.knotVectors.map fun kvs => kvs.map scaleKnotVector }

/-- `mesh.vertices.shape[1]` (splinepy/helpme/ffd.py 18-30) -/
def meshDim : List (List K) → ℕ
  | [] => 0
  | v :: _ => v.length

/-- `mesh.bounds()[0]` of gustaf (not part of the repository): smallest value of each column. (splinepy/helpme/ffd.py 99-172) -/
def lower : List (List K) → List K
  | [] => []
  | v :: vs => vs.foldl (fun m w => List.zipWith min m w) v

/-- `mesh.bounds()[1]` of gustaf: largest value of each column. (splinepy/helpme/ffd.py 99-172) -/
def upper : List (List K) → List K
  | [] => []
  | v :: vs => vs.foldl (fun m w => List.zipWith max m w) v

/-- Scaling of the vertices, ffd.py 156-171; one vertex. -/
def scaleVertex (padding : K) (lo up v : List K) : List K :=
  let lo := lo.map (· - padding)
  let up := up.map (· + padding)
  let offset := lo
  let scale := List.zipWith (fun u l => 1 / (u - l)) up lo
  List.zipWith (· * ·) (List.zipWith (· - ·) v offset) scale

/-- The attributes of an `FFD` object, ffd.py 59-64; `_q_scale` and `_q_offset` are never read. -/
structure State (K : Type) where
  mesh : Option (List (List K))
  spline : Option (Spline K (List K))
  qVertices : Option (List (List K))
  padding : K

/-- ffd.py 19-20; `para_dim` is the number of degrees. -/
def dimsMatch (s : Spline K (List K)) (m : List (List K)) : Bool := s.degrees.length = meshDim m

/-- Setter of `spline`, ffd.py 190-226: the state afterwards and whether it raised. -/
def setSpline (st : State K) : Option (Spline K (List K)) → State K × Bool
  | none => ({ st with spline := none }, false)
  | some s =>
    match st.mesh with
    | some m => if dimsMatch s m then ({ st with spline := some (normalizeKnots s) }, false) else (st, true)
    | none => ({ st with spline := some (normalizeKnots s) }, false)

/-- Default spline, ffd.py 137-144. -/
def createDefault (st : State K) (m : List (List K)) : State K × Bool :=
  match fromBounds (List.replicate (meshDim m) 0) (List.replicate (meshDim m) 1) (lower m) (upper m) with
  | none => (st, true)
  | some b => setSpline st (some b)

/-- `self._spline = None` if the dimensions do not match, ffd.py 123-134. -/
def dropMismatch (st : State K) (m : List (List K)) : State K :=
  match st.spline with
  | some s => if dimsMatch s m then st else { st with spline := none }
  | none => st

/-- Setter of `mesh`, ffd.py 98-173: the state afterwards and whether it raised. -/
def setMesh (st : State K) : Option (List (List K)) → State K × Bool
  | none => ({ st with mesh := none, qVertices := none }, false)
  | some m =>
    let st := dropMismatch st m
    let r := if st.spline.isNone then createDefault st m else (st, false)
    if r.2 then r
    else ({ r.1 with mesh := some m, qVertices := some (m.map (scaleVertex r.1.padding (lower m) (upper m))) }, false)

/-- Setter of `padding`, ffd.py 244-262; `tol` is `settings.TOLERANCE`. -/
def setPadding (tol : K) (st : State K) (padding : K) : State K × Bool :=
  if padding < 0 then (st, true)
  else if padding < tol then (st, true)
  else
    let st := { st with padding := padding }
    if st.qVertices.isSome then setMesh st st.mesh else (st, false)

/-- Getter of `mesh`, ffd.py 73-96: the vertices; `none` if it raises. `evaluate` is the evaluation of a spline at one point; the attribute error of
evaluating `None` is an exception as well. -/
def getMesh (evaluate : Spline K (List K) → List K → List K) (st : State K) : Option (List (List K)) :=
  match st.mesh, st.spline, st.qVertices with
  | some _, some s, some q => some (q.map (evaluate s))
  | _, _, _ => none

/-- an assignment by the user (splinepy/helpme/ffd.py 99-260) -/
inductive Op (K : Type) where
  | mesh (m : Option (List (List K)))
  | spline (s : Option (Spline K (List K)))
  | padding (p : K)

/-- one assignment (splinepy/helpme/ffd.py 99-260) -/
def step (tol : K) (st : State K) : Op K → State K × Bool
  | .mesh m => setMesh st m
  | .spline s => setSpline st s
  | .padding p => setPadding tol st p

/-- State before the setters in `__init__`, ffd.py 59-67, with the default padding. -/
def init (tol : K) : State K := ⟨none, none, none, tol⟩

/-- a history of assignments; an assignment that raises leaves the state it produced (splinepy/helpme/ffd.py 53-260) -/
def run (tol : K) (ops : List (Op K)) : State K := ops.foldl (fun st op => (step tol st op).1) (init tol)

end Splinepy.Ffd
