import Verif.Model.SplineCore

/-!
Model of the json and npz files: splinepy/io/json.py, splinepy/io/npz.py, `dict_to_spline` (splinepy/io/ioutils.py 134-151) and `todict` (splinepy/spline.py
1595-1645).

Simplifications: `json.dumps` followed by `json.load` gives back lists of numbers and strings (Python prints floats such that they are read back exactly);
base64 text of a buffer of doubles is an abstract type `B` with encoder and decoder as parameters; names of the list and options of plots are not modelled.
Keys of npz files are structured (number of the spline, property, number of the knot vector) instead of strings. Only splines with a core are written.
-/
namespace Splinepy.Files
open SplineCore

variable {K : Type} [Field K] [LinearOrder K] {B : Type}

/-- A spline object: class and core. (splinepy/spline.py 396-433) -/
structure Obj (K : Type) where
  cls : Cls
  core : Core K
deriving DecidableEq

/-! ### json -/

/-- Entry of an array property: nested lists, or base64 text. (splinepy/io/json.py 37-50, 120-135) -/
inductive Coef (K B : Type)
  | nested (rows : List (List K))
  | text (b : B)

/-- One dictionary of `SplineList`. (splinepy/io/json.py 69-141) -/
structure Entry (K B : Type) where
  splineType : Cls
  dim : ℕ
  degrees : List Int
  kvs : Option (List (List K))
  cps : Coef K B
  ws : Option (Coef K B)

/-- Content of a json file, splinepy/io/json.py 69-141. -/
structure JsonFile (K B : Type) where
  base64 : Bool
  splines : List (Entry K B)

/-- Body of the loop of `export`, json.py 113-134, with `todict`, spline.py 1609-1622. `none`: `KeyError` in 131, if weights are among the required properties
of the class, but the spline has none (class `Spline`). -/
def exportOne (encode : List K → B) (base64 : Bool) (o : Obj K) : Option (Entry K B) :=
  let wsRows := o.core.ws.map fun w => w.map fun x => [x]
  if base64 then
    if o.cls.takesWs then
      wsRows.map fun w =>
        { splineType := o.cls, dim := o.core.cps.dim, degrees := o.core.degrees, kvs := o.core.kvs,
          cps := .text (encode o.core.cps.rows.flatten), ws := some (.text (encode w.flatten)) }
    else
      some { splineType := o.cls, dim := o.core.cps.dim, degrees := o.core.degrees, kvs := o.core.kvs,
             cps := .text (encode o.core.cps.rows.flatten), ws := wsRows.map .nested }
  else
    some { splineType := o.cls, dim := o.core.cps.dim, degrees := o.core.degrees, kvs := o.core.kvs,
           cps := .nested o.core.cps.rows, ws := wsRows.map .nested }

/-- `export`, json.py 69-141. -/
def jsonExport (encode : List K → B) (base64 : Bool) (objs : List (Obj K)) : Option (JsonFile K B) :=
  (objs.mapM (exportOne encode base64)).map fun es => ⟨base64, es⟩

/-- `np.reshape` to `(-1, dim)`; `none`: not possible. (splinepy/io/json.py 40-47) -/
def reshape (dim : ℕ) : ℕ → List K → Option (List (List K))
  | 0, l => if l = [] then some [] else none
  | fuel + 1, l => if l = [] then some [] else if l.length < dim then none else (reshape dim fuel (l.drop dim)).map (l.take dim :: ·)

/-- Control points or weights of an entry, json.py 37-48. -/
def arrayOf (decode : B → List K) (base64 : Bool) (dim : ℕ) (c : Coef K B) : Option (Mat K) :=
  match base64, c with
  | true, .text b => (reshape dim (decode b).length (decode b)).map fun rows => ⟨dim, rows⟩
  | false, .nested rows => some ⟨(rows.headD []).length, rows⟩
  | _, _ => none

/-- Weights of an entry, json.py 42-48. -/
def weightsOf (decode : B → List K) (base64 : Bool) : Option (Coef K B) → Option (Option (List K))
  | none => some none
  | some w => (arrayOf decode base64 1 w).map fun (m : Mat K) => some m.rows.flatten

/-- Body of the loop of `load`, json.py 35-57: the properties the class requires are handed to its constructor. `none`: exception. -/
def loadOne (maxDim : ℕ) (decode : B → List K) (base64 : Bool) (e : Entry K B) : Option (Obj K) :=
  (arrayOf decode base64 e.dim e.cps).bind fun cps =>
    (weightsOf decode base64 e.ws).bind fun ws =>
    if e.splineType = .spline then none                                            -- `RequiredProperties.of` raises
    else if e.splineType.requiresKvs && e.kvs.isNone then none                     -- `KeyError`
    else if e.splineType.requiresWs && ws.isNone then none
    else
      (construct maxDim e.splineType
        { degrees := some e.degrees
          kvs := if e.splineType.requiresKvs then e.kvs else none
          cps := some cps
          ws := if e.splineType.requiresWs then ws else none }).bind fun s =>
      s.core.map fun c => ⟨e.splineType, c⟩

/-- `load`, json.py 14-66. -/
def jsonLoad (maxDim : ℕ) (decode : B → List K) (f : JsonFile K B) : Option (List (Obj K)) :=
  f.splines.mapM (loadOne maxDim decode f.base64)

/-! ### npz -/

/-- Keys of the archive. (splinepy/io/npz.py 17-113) -/
inductive Key
  | number
  | degrees (i : ℕ)
  | cps (i : ℕ)
  | ws (i : ℕ)
  | kv (i j : ℕ)
deriving DecidableEq

/-- Arrays of the archive. (splinepy/io/npz.py 62-113) -/
inductive Arr (K : Type)
  | int (n : ℕ)
  | ints (l : List Int)
  | mat (m : Mat K)
  | reals (l : List K)

/-- Files: name and content. (splinepy/io/npz.py 17-113, splinepy/io/json.py 14-141) -/
abbrev FileSystem (K : Type) := List (List Char × List (Key × Arr K))

/-- Content of a file, if there is one; splinepy/io/npz.py 17-60, splinepy/io/json.py 14-66. -/
def FileSystem.read (fs : FileSystem K) (name : List Char) : Option (List (Key × Arr K)) := fs.lookup name

/-- Entry of the weights of spline `i`, npz.py 98-100. -/
def wsEntries (i : ℕ) : Option (List K) → List (Key × Arr K)
  | some w => [(.ws i, .reals w)]
  | none => []

/-- Entries of the knot vectors of spline `i`, npz.py 102-106: one for each parametric dimension. -/
def kvEntries (i paraDim : ℕ) : Option (List (List K)) → List (Key × Arr K)
  | some l => (List.range paraDim).map fun j => (.kv i j, .reals (l.getD j []))
  | none => []

/-- Entries of one spline, npz.py 91-106. -/
def entries (i : ℕ) (o : Obj K) : List (Key × Arr K) :=
  [(.degrees i, .ints o.core.degrees), (.cps i, .mat o.core.cps)] ++ wsEntries i o.core.ws ++ kvEntries i o.core.degrees.length o.core.kvs

/-- Entries of the spline at position `i` of the list. (splinepy/io/npz.py 80-113) -/
def entriesAt (objs : List (Obj K)) (i : ℕ) : List (Key × Arr K) :=
  match objs[i]? with
  | some o => entries i o
  | none => []

/-- The archive, npz.py 81-106. -/
def archive (objs : List (Obj K)) : List (Key × Arr K) :=
  (.number, .int objs.length) :: (List.range objs.length).flatMap (entriesAt objs)

/-- File name `np.savez` writes to: the extension is added unless it is there. (splinepy/io/npz.py 110) -/
def savezName (fname : List Char) : List Char := if ".npz".toList.isSuffixOf fname then fname else fname ++ ".npz".toList

/-- `export`, npz.py 62-113. -/
def npzExport (fs : FileSystem K) (fname : List Char) (objs : List (Obj K)) : FileSystem K := (savezName fname, archive objs) :: fs

/-- `loaded[key]` for a one dimensional array. (splinepy/io/npz.py 17-60) -/
def realsAt (a : List (Key × Arr K)) (k : Key) : Option (List K) :=
  match a.lookup k with
  | some (.reals l) => some l
  | _ => none

/-- Body of the loop of `load`, npz.py 37-57: the dictionary of spline `i`. -/
def npzDict (a : List (Key × Arr K)) (i : ℕ) : Option (Props K) :=
  match a.lookup (.cps i), a.lookup (.degrees i) with
  | some (.mat m), some (.ints ds) =>
    let ws := realsAt a (.ws i)
    match a.lookup (.kv i 0) with
    | none => some ⟨some ds, none, some m, ws⟩
    | some _ =>
      ((List.range ds.length).mapM fun j => realsAt a (.kv i j)).map fun kvs => ⟨some ds, some kvs, some m, ws⟩
  | _, _ => none

/-- `NAME_TO_TYPE[spl.name]`: the class for a kind of core. (splinepy/settings.py 6-23) -/
def classOf : Kind → Cls
  | .bezier => .bezier
  | .rationalBezier => .rationalBezier
  | .bspline => .bspline
  | .nurbs => .nurbs

/-- `dict_to_spline`, ioutils.py 134-151, for one dictionary. -/
def dictToSpline (maxDim : ℕ) (p : Props K) : Option (Obj K) :=
  (construct maxDim .spline p).bind fun s => s.core.map fun c => ⟨classOf c.kind, c⟩

/-- `load`, npz.py 17-59. `none`: exception, for example no file of this name. -/
def npzLoad (maxDim : ℕ) (fs : FileSystem K) (fname : List Char) : Option (List (Obj K)) :=
  (fs.read fname).bind fun a =>
    match a.lookup .number with
    | some (.int n) => (List.range n).mapM fun i => (npzDict a i).bind (dictToSpline maxDim)
    | _ => none

end Splinepy.Files
