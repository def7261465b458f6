import Verif.Model.Files

/-!
Model of the xml files of RWTH CATS: splinepy/io/cats.py, with the conversions `bspline` and `nurbs` of the spline classes.

An xml file is the tree of its elements; text is the list of its numbers (writing and reading a number is taken to be exact). Comments are dropped by the parser.
-/
namespace Splinepy.Cats
open SplineCore Files

variable {K : Type} [Field K] [LinearOrder K]

/-- child elements of an entry, by their tags in `CATS_XML_KEY_WORDS`, cats.py 17-38; no tag contains another one that is asked for earlier -/
inductive Child (K : Type)
  /-- `cntrlPntVarNames` -/
  | names
  /-- `cntrlPntVars` -/
  | cps (l : List K)
  /-- `deg` -/
  | degrees (l : List Int)
  /-- `wght` -/
  | weights (l : List K)
  /-- `kntVecs`, with one `kntVec` for each knot vector -/
  | kvs (l : List (List K))
  | other

/-- `SplineEntry`; attributes may be missing (splinepy/io/cats.py 56-170, 230-320) -/
structure Entry (K : Type) where
  paraDim : Option ℕ
  dim : Option ℕ
  fieldDim : Option ℕ
  nCtps : Option ℕ
  closed : List Int
  children : List (Child K)

/-- the root element: whether its tag is `SplineList`, its attributes and the entries (splinepy/io/cats.py 41-170, 172-230) -/
structure File (K : Type) where
  splineList : Bool
  splineType : Option String
  nPatches : Option ℕ
  entries : List (Entry K)

/-! ### export -/

/-- `same_spline_with_knot_vectors`, src/py/py_spline_extensions.cpp 212-244: knots `0, …, 0, 1, …, 1` for Bezier splines. -/
def unitKnots (ds : List Int) : List (List K) := ds.map fun d => List.replicate (d + 1).toNat 0 ++ List.replicate (d + 1).toNat 1

/-- `spline.nurbs` if `rational` (bezier.py 380-385, rational_bezier.py 135-138, bspline.py 480-498, nurbs.py 161-162), else `spline.bspline` (bezier.py 374-377, bspline.py 476-477).
`none`: class `Spline` has no such property. -/
def convert (rational : Bool) (o : Obj K) : Option (Obj K) :=
  if o.cls = .spline then none
  else
    let kvs := o.core.kvs.getD (unitKnots o.core.degrees)
    let ones := o.core.cps.rows.map fun _ => (1 : K)
    some (if rational then ⟨.nurbs, ⟨.nurbs, o.core.degrees, some kvs, o.core.cps, some (o.core.ws.getD ones)⟩⟩
      else ⟨.bspline, ⟨.bspline, o.core.degrees, some kvs, o.core.cps, none⟩⟩)

/-- Entry of one patch, cats.py 237-308. -/
def entryOf (patch : Obj K) : Entry K :=
  { paraDim := some patch.core.degrees.length
    dim := some patch.core.cps.dim
    fieldDim := some patch.core.cps.dim
    nCtps := some patch.core.cps.rows.length
    closed := patch.core.degrees.map fun _ => 0
    children := [.names, .cps patch.core.cps.rows.flatten, .degrees patch.core.degrees, .kvs (patch.core.kvs.getD [])] ++
      (match patch.core.ws with
       | some ws => [.weights ws]
       | none => []) }

/-- `export`, cats.py 172-324. -/
def exportFile (makeRational : Bool) (objs : List (Obj K)) : Option (File K) :=
  (objs.mapM fun o => (convert (o.core.ws.isSome || makeRational) o).map entryOf).map fun es => ⟨true, some "1", some objs.length, es⟩

/-! ### load -/

/-- `array.reshape(-1, ctps_dim)[:, :dim]`, cats.py 103-105. -/
def readPoints (fieldDim dim : ℕ) (l : List K) : Option (Mat K) := (reshape fieldDim l.length l).map fun rows => ⟨min dim fieldDim, rows.map (·.take dim)⟩

/-- One child element, cats.py 94-139; `none` raises. -/
def readChild (paraDim dim fieldDim : ℕ) (p : Props K) : Child K → Option (Props K)
  | .cps l => (readPoints fieldDim dim l).map fun m => { p with cps := some m }
  | .degrees l => if l.length ≠ paraDim then none else some { p with degrees := some l }
  | .weights l => some { p with ws := some l }
  | .kvs l => some { p with kvs := some l }
  | .names => some p
  | .other => some p

/-- `_read_spline`, cats.py 56-141. -/
def readSpline (e : Entry K) : Option (Props K) :=
  match e.dim, e.paraDim, e.fieldDim, e.nCtps with
  | some dim, some paraDim, some fieldDim, some _ =>
    if e.closed.any (· == 1) then none else e.children.foldlM (readChild paraDim dim fieldDim) {}
  | _, _, _, _ => none

/-- `load`, cats.py 41-169. -/
def load (maxDim : ℕ) (f : File K) : Option (List (Obj K)) :=
  if !f.splineList then some []
  else if f.splineType.getD "1" ≠ "1" then none
  else (f.entries.mapM readSpline).bind fun ps => if ps.length ≠ f.nPatches.getD 0 then none else ps.mapM (dictToSpline maxDim)

end Splinepy.Cats
