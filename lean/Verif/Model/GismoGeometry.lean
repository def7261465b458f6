import Verif.Model.Cats

/-!
Model of the geometry and of the options in gismo files, splinepy/io/gismo.py.

Numbers written as text are taken to be read back exactly; base64 is the list of bytes.
-/
namespace Splinepy.Gismo
open SplineCore Files

variable {K : Type} [Field K] [LinearOrder K]

/-! ### geometry -/

/-- Formats of `type_from_keyword`, gismo.py 514-523. -/
inductive Format
  | float64
  | float32
  | uint16
  | uint32
  | uint64
  | int16
  | int32
  | int64
deriving DecidableEq

/-- Text of an element with its attribute `format`. (splinepy/io/gismo.py 67-95, 503-541) -/
inductive Text (K : Type)
  | ascii (l : List K)
  | binary (format : Format) (bytes : List ℕ)
  /-- any other value of `format` -/
  | unknown

/-- `_array_to_text` with the format flag of line 196, gismo.py 67-76: `bytes` gives the eight bytes of a float64. -/
def toText (bytes : K → List ℕ) (asBase64 : Bool) (l : List K) : Text K := if asBase64 then .binary .float64 (l.flatMap bytes) else .ascii l

/-- `np.frombuffer(…, dtype=np.float64)`: eight bytes for each number; `none`: the size is not a multiple of eight. (splinepy/io/gismo.py 503-541) -/
def fromBuffer (number : List ℕ → K) : ℕ → List ℕ → Option (List K)
  | 0, l => if l = [] then some [] else none
  | fuel + 1, l => if l = [] then some [] else if l.length < 8 then none else (fromBuffer number fuel (l.drop 8)).map (number (l.take 8) :: ·)

/-- `_matrix_from_node`, gismo.py 503-540: the format is looked up, and float64 is read. -/
def fromText (number : List ℕ → K) : Text K → Option (List K)
  | .ascii l => some l
  | .binary _ bytes => fromBuffer number bytes.length bytes
  | .unknown => none

/-- `Basis` of one parametric dimension: `index`, and `degree` and text of the `KnotVector`. (splinepy/io/gismo.py 176-213, 543-564) -/
structure Direction (K : Type) where
  index : ℕ
  degree : Int
  knots : Text K

/-- `Geometry` element: number at the end of the type of the basis, its directions, `weights` of a NURBS basis, `geoDim` and text of `coefs`. (splinepy/io/gismo.py 127-229) -/
structure Geometry (K : Type) where
  paraDim : ℕ
  directions : List (Direction K)
  weights : Option (Text K)
  geoDim : ℕ
  coefs : Text K

/-- Splines without knot vectors are converted, gismo.py 156-166. -/
def asGismo (o : Obj K) : Option (Obj K) :=
  match o.cls with
  | .bezier => Cats.convert false o
  | .rationalBezier => Cats.convert true o
  | .bspline => some o
  | .nurbs => some o
  | .spline => none

/-- Body of the loop of `_spline_to_ET` for the geometry, gismo.py 129-229. Splines of class `Spline` are not modelled. -/
def geometryOf (bytes : K → List ℕ) (asBase64 : Bool) (o : Obj K) : Option (Geometry K) :=
  (asGismo o).map fun s =>
    { paraDim := s.core.degrees.length
      directions := (List.range s.core.degrees.length).map fun i => ⟨i, s.core.degrees.getD i 0, toText bytes asBase64 ((s.core.kvs.getD []).getD i [])⟩
      weights := o.core.ws.map (toText bytes asBase64)
      geoDim := o.core.cps.dim
      coefs := toText bytes asBase64 o.core.cps.rows.flatten }

/-- Geometry part of `export`. (splinepy/io/gismo.py 14-231) -/
def exportGeometry (bytes : K → List ℕ) (asBase64 : Bool) (objs : List (Obj K)) : Option (List (Geometry K)) := objs.mapM (geometryOf bytes asBase64)

/-- Lists filled by index in `retrieve_from_basis_`, gismo.py 551-564: degree and knot vector of every direction. `none`: index out of range or unreadable text. -/
def fillDirections (number : List ℕ → K) : List (Direction K) → List (Option (Int × List K)) → Option (List (Option (Int × List K)))
  | [], l => some l
  | d :: ds, l => (fromText number d.knots).bind fun kv => if d.index < l.length then fillDirections number ds (l.set d.index (some (d.degree, kv))) else none

/-- Weights, gismo.py 547-548. -/
def readWeights (number : List ℕ → K) : Option (Text K) → Option (Option (List K))
  | none => some none
  | some t => (fromText number t).map some

/-- `Geometry` element in `load`, gismo.py 661-681: the class depends on the presence of weights. A direction left out makes the constructor raise. -/
def loadGeometry (maxDim : ℕ) (number : List ℕ → K) (g : Geometry K) : Option (Obj K) :=
  (fillDirections number g.directions (List.replicate g.paraDim none)).bind fun l =>
    (l.mapM id).bind fun dirs =>
      (readWeights number g.weights).bind fun ws =>
        (fromText number g.coefs).bind fun flat =>
          (reshape g.geoDim flat.length flat).bind fun rows =>
            let cls : Cls := if ws.isNone then .bspline else .nurbs
            (construct maxDim cls ⟨some (dirs.map (·.1)), some (dirs.map (·.2)), some ⟨g.geoDim, rows⟩, ws⟩).bind fun s => s.core.map fun c => ⟨cls, c⟩

/-! ### options -/

/-- Dictionaries of `options`: `tag` (may be missing), `attributes` and `children` (missing: empty), `text`. (splinepy/io/gismo.py 443-470, 567-575) -/
inductive Opt
  | mk (tag : Option String) (attributes : List (String × String)) (text : Option (List Char)) (children : List Opt)

/-- Elements of an xml file (splinepy/io/gismo.py 443-482, 567-575) -/
inductive Elem
  | mk (tag : String) (attributes : List (String × String)) (text : Option (List Char)) (children : List Elem)

/-- Name of an element, splinepy/io/gismo.py 443-482. -/
def Elem.tag : Elem → String
  | .mk t _ _ _ => t

mutual
/-- `_apply_options`, gismo.py 443-464, one dictionary; `none`: the tag is missing. -/
def applyOption : Opt → Option Elem
  | .mk none _ _ _ => none
  | .mk (some tag) attrs text children => (applyOptions children).map fun cs => .mk tag attrs text cs
/-- `_apply_options`, gismo.py 443-464. -/
def applyOptions : List Opt → Option (List Elem)
  | [] => some []
  | o :: os => (applyOption o).bind fun e => (applyOptions os).map (e :: ·)
end

/-- `not elem.text or not elem.text.strip()` (`xml.etree`, called in splinepy/io/gismo.py 468-482) -/
def blank : Option (List Char) → Bool
  | none => true
  | some s => s.all Char.isWhitespace

/-- newline and indentation at a level (`xml.etree`, called in splinepy/io/gismo.py 468-482) -/
def indentation (level : ℕ) : List Char := '\n' :: List.replicate (2 * level) ' '

mutual
/-- `ET.indent` below an element at the given level: the text of an element with children is replaced if it is blank (tails are not read back). (`xml.etree`, called in splinepy/io/gismo.py 468-482) -/
def indentElem (level : ℕ) : Elem → Elem
  | .mk tag attrs text children =>
    .mk tag attrs (if children.isEmpty then text else if blank text then some (indentation (level + 1)) else text) (indentElems (level + 1) children)
/-- the children of an element (`xml.etree`, called in splinepy/io/gismo.py 468-482) -/
def indentElems (level : ℕ) : List Elem → List Elem
  | [] => []
  | e :: es => indentElem level e :: indentElems level es
end

mutual
/-- Writing and parsing: an empty text is no text. (splinepy/io/gismo.py 477-482, 579) -/
def parsed : Elem → Elem
  | .mk tag attrs text children => .mk tag attrs (if text = some [] then none else text) (parsedAll children)
/-- all children (splinepy/io/gismo.py 477-482, 579) -/
def parsedAll : List Elem → List Elem
  | [] => []
  | e :: es => parsed e :: parsedAll es
end

/-- Children of the root element written by `export`: topology, `boundaryConditions` if any (with `labeled_boundaries=False`, gismo.py 380-399), geometries, options. -/
def exportXml (indent : Bool) (topology : Elem) (conditions : Option Elem) (geometries : List Elem) (options : List Opt) : Option (List Elem) :=
  (applyOptions options).map fun opts =>
    let all := [topology] ++ conditions.toList ++ geometries ++ opts
    parsedAll (if indent then indentElems 1 all else all)

mutual
/-- `make_dictionary`, gismo.py 567-575. -/
def makeDictionary : Elem → Opt
  | .mk tag attrs text children => .mk (some tag) attrs text (makeDictionaries children)
/-- the children (splinepy/io/gismo.py 567-575) -/
def makeDictionaries : List Elem → List Opt
  | [] => []
  | e :: es => makeDictionary e :: makeDictionaries es
end

/-- `load`, gismo.py 588-691: what is neither `MultiPatch` nor `Geometry` is an option. -/
def loadOptions (children : List Elem) : List Opt :=
  makeDictionaries (children.filter fun e => !("MultiPatch".toList.isPrefixOf e.tag.toList || "Geometry".toList.isPrefixOf e.tag.toList))

end Splinepy.Gismo
