import Mathlib.Algebra.Order.Field.Basic

/-!
Model of the life of a spline object: creation of the core (`src/py/py_spline.cpp` 49-228, `src/splines/splinepy_base.cpp` 37-372), the
setters and getters of `splinepy/spline.py` (251-344, 396-433, 675-989, 1062-1134) and the caches in `spline._data`.

Simplifications: arrays are values (conversions to contiguous arrays of doubles or ints are not modelled; the rows of the control points are modelled by
their entries and the number of columns); the constructors of the external spline classes do not throw. Cores live on a heap, because a
parameter space object refers to the knot vectors of the core it was made from.
-/
namespace Splinepy.SplineCore

variable {K : Type} [Field K] [LinearOrder K]

/-- control points: an array of shape `(rows.length, dim)` (splinepy/spline.py 944-989) -/
structure Mat (K : Type) where
  dim : ℕ
  rows : List (List K)
deriving DecidableEq

/-- the properties handed to `_new_core` (src/py/py_spline.cpp 49-82) -/
structure Props (K : Type) where
  degrees : Option (List Int) := none
  kvs : Option (List (List K)) := none
  cps : Option (Mat K) := none
  ws : Option (List K) := none
deriving DecidableEq

/-- Kinds of cores, src/splines/splinepy_base.cpp 37-75. -/
inductive Kind
  | bezier | rationalBezier | bspline | nurbs
deriving DecidableEq, Repr

/-- a core spline (src/splines/splinepy_base.cpp 37-372) -/
structure Core (K : Type) where
  kind : Kind
  degrees : List Int
  kvs : Option (List (List K))
  cps : Mat K
  ws : Option (List K)
deriving DecidableEq

/-- Outcome of creating a core: skipped because properties are missing, raised, created; src/py/py_spline.cpp 49-228. -/
inductive Created (K : Type)
  | skipped
  | raised
  | created (c : Core K)
deriving DecidableEq

/-! ### PySpline::NewCore -/

/-- lines 109-131: the knots are not smaller than their predecessor, starting with -1 (src/py/py_spline.cpp) -/
def knotsOk : K → List K → Bool
  | _, [] => true
  | prev, k :: ks => if prev - k > 0 then false else knotsOk k ks

/-- lines 92-155: the loop over the parametric dimensions, from dimension `i` on, with the product so far; `none` raises (src/py/py_spline.cpp) -/
def kvLoop (kvs : List (List K)) : ℕ → List Int → Int → Option Int
  | _, [], acc => some acc
  | i, d :: ds, acc =>
    if d < 0 then none else
    match kvs[i]? with
    | none => none
    | some kv =>
      if knotsOk (-1) kv = false then none else
      if (kv.length : Int) < 2 * (d + 1) then none else
      kvLoop kvs (i + 1) ds (acc * ((kv.length : Int) - d - 1))

/-- lines 179-189: no knot vectors (src/py/py_spline.cpp) -/
def degLoop : List Int → Int → Option Int
  | [], acc => some acc
  | d :: ds, acc => if d < 0 then none else degLoop ds (acc * (d + 1))

/-- lines 83-190: number of control points the degrees and knot vectors ask for (src/py/py_spline.cpp) -/
def requiredNcps (kvs : Option (List (List K))) (ds : List Int) : Option Int :=
  match kvs with
  | some l => kvLoop l 0 ds 1
  | none => degLoop ds 1

/-- `SplinepyCreate`, splinepy_base.cpp 37-75 -/
def dispatch (hasKvs hasWs : Bool) : Kind :=
  if !hasKvs then (if !hasWs then .bezier else .rationalBezier) else (if !hasWs then .bspline else .nurbs)

/-- the switches over the dimensions, splinepy_base.cpp 77-372 and `src/splines/create/*`: `maxDim` is 10 with `SPLINEPY_MORE`, else 3. The physical dimension is a
template argument for Bezier splines only. -/
def dimsSupported (maxDim : ℕ) (k : Kind) (paraDim dim : ℕ) : Bool :=
  decide (1 ≤ paraDim) && decide (paraDim ≤ maxDim) &&
    (match k with
     | .bezier | .rationalBezier => decide (1 ≤ dim) && decide (dim ≤ maxDim)
     | _ => true)

/-- `NewCore`, py_spline.cpp 49-228 -/
def newCore (maxDim : ℕ) (p : Props K) : Created K :=
  match p.degrees, p.cps with
  | some ds, some cps =>
    if cps.dim = 0 then .raised else
    match requiredNcps p.kvs ds with
    | none => .raised
    | some required =>
      if (cps.rows.length : Int) ≠ required then .raised else
      match p.ws with
      | none =>
        let k := dispatch p.kvs.isSome false
        if dimsSupported maxDim k ds.length cps.dim then .created ⟨k, ds, p.kvs.map (·.take ds.length), cps, none⟩ else .raised
      | some ws =>
        if ws.length ≠ cps.rows.length then .raised else
        let k := dispatch p.kvs.isSome true
        if dimsSupported maxDim k ds.length cps.dim then .created ⟨k, ds, p.kvs.map (·.take ds.length), cps, some ws⟩ else .raised
  | _, _ => .skipped

/-! ### spline objects -/

/-- classes on the Python side (splinepy/spline.py 31-46, splinepy/bezier.py, splinepy/bspline.py) -/
inductive Cls
  | spline | bezier | rationalBezier | bspline | nurbs
deriving DecidableEq

/-- `RequiredProperties`, spline.py 31-46: whether knot vectors are required; `Spline` takes anything -/
def Cls.requiresKvs : Cls → Bool
  | .bspline | .nurbs => true
  | _ => false

/-- Whether weights are required, splinepy/spline.py 31-46. -/
def Cls.requiresWs : Cls → Bool
  | .rationalBezier | .nurbs => true
  | _ => false

/-- whether the property is among `required_properties` (all for `Spline`, 448-456) (splinepy/spline.py) -/
def Cls.takesKvs : Cls → Bool
  | .spline | .bspline | .nurbs => true
  | _ => false

/-- Whether weights are among `required_properties`, splinepy/spline.py 31-46, 448-456. -/
def Cls.takesWs : Cls → Bool
  | .spline | .rationalBezier | .nurbs => true
  | _ => false

/-- the saved knot vectors: a list of arrays, or a parameter space object of a core (splinepy/spline.py 829-876) -/
inductive KvData (K : Type)
  | plain (l : List (List K))
  | space (core : ℕ)
deriving DecidableEq

/-- `spline._data` (splinepy/spline.py 396-433) -/
structure Data (K : Type) where
  degrees : Option (List Int) := none
  kvs : Option (KvData K) := none
  cps : Option (Mat K) := none
  ws : Option (List K) := none
  multiIndex : Option (List Int) := none
deriving DecidableEq

/-- A spline object with the cores made so far, splinepy/spline.py 396-433. -/
structure State (K : Type) where
  data : Data K := {}
  heap : List (Core K) := []
  cur : Option ℕ := none
deriving DecidableEq

/-- The current core, src/py/py_spline.cpp 219. -/
def State.core (s : State K) : Option (Core K) := s.cur.bind (fun i => s.heap[i]?)

/-- The knots behind the saved value, splinepy/spline.py 829-838. -/
def KvData.value (heap : List (Core K)) : KvData K → Option (List (List K))
  | .plain l => some l
  | .space j => (heap[j]?).bind (·.kvs)

/-- getter `degrees`, 768-778 (splinepy/spline.py) -/
def getDegrees (s : State K) : State K × Option (List Int) :=
  match s.core with
  | none => (s, s.data.degrees)
  | some c => match s.data.degrees with
    | some d => (s, some d)
    | none => ({ s with data := { s.data with degrees := some c.degrees } }, some c.degrees)

/-- getter `knot_vectors`, 829-838 (splinepy/spline.py) -/
def getKvs (s : State K) : State K × Option (List (List K)) :=
  match s.core with
  | none => (s, s.data.kvs.bind (·.value s.heap))
  | some c => match c.kvs with
    | none => (s, none)
    | some l => match s.data.kvs with
      | some (.space j) => (s, (KvData.space j).value s.heap)
      | _ => ({ s with data := { s.data with kvs := s.cur.map KvData.space } }, some l)

/-- `_prepare_coordinates`, 183-221. Called by the getters of control points and weights whenever the saved arrays are not yet connected to the core; calling it again does
not change values, so it is called in every getter here. (splinepy/spline.py) -/
def prepare (s : State K) : State K :=
  match s.core with
  | none => s
  | some c =>
    if s.data.cps = none ∨ (c.ws.isSome ∧ s.data.ws = none) then
      { s with data := { s.data with cps := some c.cps, ws := if c.ws.isSome then c.ws else s.data.ws } }
    else s

/-- getters `control_points`, `weights`, 955-962, 1101-1108 (splinepy/spline.py) -/
def getCps (s : State K) : State K × Option (Mat K) := (prepare s, (prepare s).data.cps)
/-- Getter `weights`, splinepy/spline.py 1101-1108. -/
def getWs (s : State K) : State K × Option (List K) := (prepare s, (prepare s).data.ws)

/-- control mesh resolutions, properties.hpp 69-89 -/
def meshResolutions (kvs : Option (List (List K))) (ds : List Int) : List Int :=
  match kvs with
  | some l => List.zipWith (fun (kv : List K) (d : Int) => (kv.length : Int) - d - 1) l ds
  | none => ds.map (· + 1)

/-- Control mesh resolutions of a core, include/splinepy/splines/helpers/properties.hpp 69-89. -/
def resolutions (c : Core K) : List Int := meshResolutions c.kvs c.degrees

/-- getter `multi_index`, 1076-1086; `none` raises (splinepy/spline.py) -/
def getMultiIndex (s : State K) : Option (State K × List Int) :=
  match s.data.multiIndex with
  | some m => some (s, m)
  | none => s.core.map (fun c => ({ s with data := { s.data with multiIndex := some (resolutions c) } }, resolutions c))

/-- outcome of a call: state afterwards, and whether it raised (splinepy/spline.py 675-753) -/
structure Res (K : Type) where
  state : State K
  raised : Bool
deriving DecidableEq

/-- the spline object takes the new core (line 219 of py_spline.cpp), keeps the old one if there is none or creation raises -/
def takeCore (s : State K) : Created K → Res K
  | .skipped => ⟨s, false⟩
  | .raised => ⟨s, true⟩
  | .created c => ⟨{ s with heap := s.heap ++ [c], cur := some s.heap.length }, false⟩

/-- `_new_core(keep_properties=True, raise_=False, **_data)`, 675-753 (splinepy/spline.py) -/
def pyNewCore (maxDim : ℕ) (cls : Cls) (s : State K) : Res K :=
  let kvs := s.data.kvs.bind (·.value s.heap)
  let complete := s.data.degrees.isSome && s.data.cps.isSome && (!cls.requiresKvs || kvs.isSome) && (!cls.requiresWs || s.data.ws.isSome)
  let p : Props K := ⟨s.data.degrees, if cls.takesKvs then kvs else none, s.data.cps, if cls.takesWs then s.data.ws else none⟩
  if cls ≠ .spline ∧ complete = false then ⟨s, false⟩ else
  takeCore s (newCore maxDim p)

/-- Names of the properties, splinepy/spline.py 31-46. -/
inductive Prop'
  | degrees | kvs | cps | ws
deriving DecidableEq

/-- `_safe_new_core`, 251-286: the getters of all required properties but the excluded one, then `_new_core` (splinepy/spline.py) -/
def safeNewCore (maxDim : ℕ) (cls : Cls) (exclude : Prop') (s : State K) : Res K :=
  let s1 := if exclude = .degrees then s else (getDegrees s).1
  let s2 := if exclude = .kvs ∨ cls.takesKvs = false then s1 else (getKvs s1).1
  let s3 := if exclude = .cps then s2 else (getCps s2).1
  let s4 := if exclude = .ws ∨ cls.takesWs = false then s3 else (getWs s3).1
  pyNewCore maxDim cls s4

/-- the length checks 800-802, 860, 319-321: a value is there and has another length (splinepy/spline.py) -/
def mismatch {α : Type} (o : Option (List α)) (n : ℕ) : Bool :=
  match o with
  | some l => decide (l.length ≠ n)
  | none => false

/-- setter `degrees`, 794-814 (splinepy/spline.py) -/
def setDegrees (maxDim : ℕ) (cls : Cls) (s : State K) (ds : List Int) : Res K :=
  let g := getKvs s
  if mismatch g.2 ds.length then ⟨g.1, true⟩ else
  safeNewCore maxDim cls .degrees { g.1 with data := { g.1.data with degrees := some ds } }

/-- setter `knot_vectors`, 854-876 (splinepy/spline.py) -/
def setKvs (maxDim : ℕ) (cls : Cls) (s : State K) (l : List (List K)) : Res K :=
  let g := getDegrees s
  if mismatch g.2 l.length then ⟨g.1, true⟩ else
  safeNewCore maxDim cls .kvs { g.1 with data := { g.1.data with kvs := some (.plain l) } }

/-- setter `control_points`, 978-989 with `_safe_array_copy`, 314-344 (assigning the saved array itself does nothing and is not modelled) (splinepy/spline.py) -/
def setCps (maxDim : ℕ) (cls : Cls) (s : State K) (m : Mat K) : Res K :=
  if mismatch s.data.ws m.rows.length then ⟨s, true⟩ else
  safeNewCore maxDim cls .cps { s with data := { s.data with cps := some m } }

/-- setter `weights`, 1124-1134 with `_safe_array_copy`, 314-344 (splinepy/spline.py) -/
def setWs (maxDim : ℕ) (cls : Cls) (s : State K) (w : List K) : Res K :=
  if mismatch (s.data.cps.map (·.rows)) w.length then ⟨s, true⟩ else
  safeNewCore maxDim cls .ws { s with data := { s.data with ws := some w } }

/-- The calls on a spline object, splinepy/spline.py 659-989, 1062-1134, 1486-1541. -/
inductive Op (K : Type)
  | degrees (ds : List Int)
  | kvs (l : List (List K))
  | cps (m : Mat K)
  | ws (w : List K)
  /-- assignment of `None` to any property, or `clear()`: 659-673, 794-797, 854-857, 978-981, 1124-1127 -/
  | clear
  /-- reading `spline.knot_vectors` -/
  | readKvs
  /-- reading `spline.control_points` or `spline.weights` -/
  | readCps
  /-- reading `spline.multi_index` -/
  | readMultiIndex
  /-- `elevate_degrees`, `insert_knots`, `remove_knots`, … (spline.py 1486-1541, bspline.py 75-123, 271-323): the core gets new properties, then `_data = {}` -/
  | modify (c : Core K)
  /-- successful in-place assignment to the object returned by `spline.knot_vectors` -/
  | editKvs (l : List (List K))

/-- Effect of one call, splinepy/spline.py 659-989, 1062-1134, 1486-1541. -/
def step (maxDim : ℕ) (cls : Cls) (s : State K) : Op K → Res K
  | .degrees ds => setDegrees maxDim cls s ds
  | .kvs l => setKvs maxDim cls s l
  | .cps m => setCps maxDim cls s m
  | .ws w => setWs maxDim cls s w
  | .clear => ⟨{ s with data := {}, cur := none }, false⟩
  | .readKvs => ⟨(getKvs s).1, false⟩
  | .readCps => ⟨(getCps s).1, false⟩
  | .readMultiIndex => match getMultiIndex s with
    | none => ⟨s, true⟩
    | some g => ⟨g.1, false⟩
  | .modify c => match s.cur with
    | none => ⟨s, true⟩
    | some i => ⟨{ s with data := {}, heap := s.heap.set i c }, false⟩
  | .editKvs l =>
    let g := (getKvs s).1
    match g.data.kvs with
    | some (.space j) => match g.heap[j]? with
      | some c => ⟨{ g with heap := g.heap.set j { c with kvs := some l } }, false⟩
      | none => ⟨g, true⟩
    | some (.plain _) => ⟨{ g with data := { g.data with kvs := some (.plain l) } }, false⟩
    | none => ⟨g, true⟩

/-- a history of calls; `none` if one of them raises (splinepy/spline.py 659-1134) -/
def run (maxDim : ℕ) (cls : Cls) (s : State K) (ops : List (Op K)) : Option (State K) :=
  ops.foldlM (fun s op => let r := step maxDim cls s op; if r.raised then none else some r.state) s

/-- `__init__` with keyword arguments, 411-433: `Spline` sets weights, control points, knot vectors, degrees; the others degrees, knot vectors, control points,
weights, if required (splinepy/spline.py) -/
def construct (maxDim : ℕ) (cls : Cls) (p : Props K) : Option (State K) :=
  let d := (p.degrees.map Op.degrees).toList
  let k := if cls.takesKvs then (p.kvs.map Op.kvs).toList else []
  let c := (p.cps.map Op.cps).toList
  let w := if cls.takesWs then (p.ws.map Op.ws).toList else []
  run maxDim cls {} (if cls = .spline then w ++ c ++ k ++ d else d ++ k ++ c ++ w)

end Splinepy.SplineCore
