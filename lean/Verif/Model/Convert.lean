import Verif.Model.Irit

/-!
Model of `load` and `export` by extension (splinepy/io/default.py) and of `splinepy convert` (splinepy/cli.py 9-27).

The contents of json, npz and irit files are those of `Model/Files` and `Model/Irit`. What gismo, mfem, iges and svg files hold is an abstract type `F` with writers and readers as
parameters (`Others`); here it matters only which Python objects they take and return. Reading a file of another format is an exception. Simplification: an iges export that
fails leaves the files as they are (the writer is not part of the repository).
-/
namespace Splinepy.Convert
open SplineCore Files

variable {K : Type} [Field K] [LinearOrder K] {B F : Type}

/-- Contents of files. `broken` is what remains of a file that was opened for writing, if an exception ends the export (splinepy/io/irit.py 190). -/
inductive Content (K B F : Type)
  | json (f : JsonFile K B)
  | npz (a : List (Key × Arr K))
  | irit (ts : List (Irit.Tok K))
  | foreign (x : F)
  | broken

/-- Files: name and content; the first entry counts. (splinepy/io/default.py 24-77) -/
abbrev Disk (K B F : Type) := List (List Char × Content K B F)

/-- Element of a Python list that is exported: a spline, or something else. (splinepy/io/json.py 112-114) -/
inductive Item (K : Type)
  | spline (o : Obj K)
  | other

/-- What `load` returns and `export` takes: a spline, a list, or the pair of multipatch and options (splinepy/io/gismo.py 701). -/
inductive Value (K : Type)
  | spline (o : Obj K)
  | list (l : List (Item K))
  | pair (patches : List (Obj K))

/-- Readers and writers of the other formats: gismo.py 234-703, mfem.py 33-145 and 508-690, iges.py 8-40, svg.py 1154-1390 (splinepy/io). -/
structure Others (K F : Type) where
  xmlLoad : F → Option (List (Obj K))
  xmlExport : List (Obj K) → Option F
  meshLoad : F → Option (Obj K)
  meshExport : Obj K → Option F
  igesLoad : F → Option (List (Obj K))
  igesExport : List (Obj K) → Option F
  svgExport : List (Obj K) → Option F

/-! ### names of files -/

/-- Parts of a path between slashes. `pathlib.Path(fname)`, splinepy/io/default.py 45, 72. -/
def components : List Char → List (List Char)
  | [] => [[]]
  | c :: cs =>
    if c = '/' then [] :: components cs
    else match components cs with
      | [] => [[c]]
      | x :: xs => (c :: x) :: xs

/-- `pathlib.Path(fname).name`: the last part; empty parts and parts `.` do not count. (splinepy/io/default.py 45, 72) -/
def fileName (fname : List Char) : List Char := ((components fname).filter fun c => !(c == []) && !(c == ['.'])).getLastD []

/-- `pathlib.Path(fname).suffix`: from the last dot on, if it is neither the first nor the last character of the name. (splinepy/io/default.py 45, 72) -/
def suffix (fname : List Char) : List Char :=
  let name := fileName fname
  let after := (name.reverse.takeWhile (· ≠ '.')).reverse
  if after.length + 1 < name.length ∧ after ≠ [] then '.' :: after else []

/-- Modules of the io package. (splinepy/io/default.py 11-21) -/
inductive Format
  | gismo | iges | irit | json | mfem | npz | svg
deriving DecidableEq

/-- `extension_to_io`, splinepy/io/default.py 11-21. -/
def formatOf (extension : List Char) : Option Format :=
  if extension = ".xml".toList then some .gismo
  else if extension = ".iges".toList ∨ extension = ".igs".toList then some .iges
  else if extension = ".itd".toList ∨ extension = ".irit".toList then some .irit
  else if extension = ".json".toList then some .json
  else if extension = ".mesh".toList then some .mfem
  else if extension = ".npz".toList then some .npz
  else if extension = ".svg".toList then some .svg
  else none

/-! ### export -/

/-- The splines of a list; `none`: it holds something else. (splinepy/io/json.py 112-114) -/
def splinesOf (l : List (Item K)) : Option (List (Obj K)) := l.mapM fun i => match i with | .spline o => some o | .other => none

/-- `if not isinstance(x, list): x = [x]`, splinepy/io/json.py 96-97, splinepy/cli.py 23-24. -/
def asList : Value K → List (Item K)
  | .spline o => [.spline o]
  | .list l => l
  | .pair _ => [.other]

/-- Write a file. (splinepy/io/json.py 138-139, splinepy/io/npz.py 110) -/
def write (disk : Disk K B F) (fname : List Char) (c : Content K B F) : Disk K B F := (fname, c) :: disk

/-- Write a file if there is something to write; otherwise an exception came before. The second component: no exception. (splinepy/io/json.py 69-141) -/
def writeSome (disk : Disk K B F) (fname : List Char) (c : Option (Content K B F)) : Disk K B F × Bool :=
  match c with
  | some c => (write disk fname c, true)
  | none => (disk, false)

/-- What the module does with the exported object: json.py 96-114 and 138, npz.py 75-79 and 110, irit.py 184-190, gismo.py 283-299, iges.py 25-40 (`py::list`,
src/py/py_spline_exporter.cpp 50-68), mfem.py 508-702, svg.py 1274-1288 (splinepy/io). The second component: no exception. -/
def exportAs (encode : List K → B) (others : Others K F) (disk : Disk K B F) (fname : List Char) (v : Value K) : Format → Disk K B F × Bool
  | .json => writeSome disk fname (((splinesOf (asList v)).bind (jsonExport encode false)).map .json)
  | .npz => writeSome disk (savezName fname) ((splinesOf (asList v)).map fun objs => .npz (archive objs))
  | .irit =>
    match (splinesOf (asList v)).bind Irit.exportFile with
    | some ts => (write disk fname (.irit ts), true)
    | none => (write disk fname .broken, false)
  | .gismo => writeSome disk fname (((splinesOf (asList v)).bind others.xmlExport).map .foreign)
  | .svg => writeSome disk fname (((splinesOf (asList v)).bind others.svgExport).map .foreign)
  | .iges =>
    match v with
    | .list l => writeSome disk fname (((splinesOf l).bind others.igesExport).map .foreign)
    | _ => (disk, false)
  | .mfem =>
    match v with
    | .spline o => writeSome disk fname ((others.meshExport o).map .foreign)
    | _ => (disk, false)

/-- `io.export`, splinepy/io/default.py 24-50. The second component: no exception. -/
def exportValue (encode : List K → B) (others : Others K F) (disk : Disk K B F) (fname : List Char) (v : Value K) : Disk K B F × Bool :=
  match formatOf (suffix fname) with
  | none => (disk, false)
  | some f => exportAs encode others disk fname v f

/-! ### load -/

/-- A list of splines as Python value. (splinepy/io/json.py 66, splinepy/io/npz.py 59, splinepy/io/irit.py 163) -/
def listOf (objs : List (Obj K)) : Value K := .list (objs.map .spline)

/-- What the module reads from a content: json.py 14-66, npz.py 17-59, irit.py 17-163, gismo.py 484-703 (options are loaded by default), mfem.py 33-145, iges.py 8-22
(splinepy/io). The module svg has no function `load`. `none`: exception. -/
def readAs (maxDim : ℕ) (decode : B → List K) (others : Others K F) : Format → Content K B F → Option (Value K)
  | .json, .json f => (jsonLoad maxDim decode f).map listOf
  | .npz, .npz a =>
    match a.lookup .number with
    | some (.int n) => ((List.range n).mapM fun i => (npzDict a i).bind (dictToSpline maxDim)).map listOf
    | _ => none
  | .irit, .irit ts => (Irit.load maxDim ts).map listOf
  | .gismo, .foreign x => (others.xmlLoad x).map .pair
  | .mfem, .foreign x => (others.meshLoad x).map .spline
  | .iges, .foreign x => (others.igesLoad x).map listOf
  | _, _ => none

/-- `io.load`, splinepy/io/default.py 53-77. An irit file is written again with its own content first (irit.py 36-37, ioutils.py 102-131). Second component `none`: exception. -/
def loadValue (maxDim : ℕ) (decode : B → List K) (others : Others K F) (disk : Disk K B F) (fname : List Char) : Disk K B F × Option (Value K) :=
  match formatOf (suffix fname), disk.lookup fname with
  | some f, some c => (if f = .irit then write disk fname c else disk, readAs maxDim decode others f c)
  | _, _ => (disk, none)

/-- `convert`, splinepy/cli.py 9-27, with an output file. The second component: no exception. -/
def convert (maxDim : ℕ) (encode : List K → B) (decode : B → List K) (others : Others K F) (disk : Disk K B F) (inputFile outputFile : List Char) : Disk K B F × Bool :=
  match loadValue maxDim decode others disk inputFile with
  | (disk', none) => (disk', false)
  | (disk', some v) => exportValue encode others disk' outputFile (.list (asList v))

end Splinepy.Convert
