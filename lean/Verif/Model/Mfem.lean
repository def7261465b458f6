import Verif.Model.Index
import Mathlib.Data.List.Sort

/-!
Model of splinepy/io/mfem.py: numbering of control points (`dof_mapping`), single patch files (`export`, `load`, `read_solution`) and multipatch files
(`export_cartesian`).

A file is a list of lines, a line the list of its tokens; writing a number and reading it back (`str`, `literal_eval`) is taken to be exact. `none`: an exception.
-/
namespace Splinepy.Mfem
open Splinepy.Index (Spline controlMeshResolutions multiIndexGet)
open Splinepy.Spec (flat)

/-! ### `dof_mapping` -/

/-- indices selected by a slice with step 1 and the bounds `start`, `stop` on an axis of length `n`; negative bounds count from the end, bounds are clipped (`slice.indices`) (indices of splinepy/io/mfem.py 193-274) -/
def slice (n : ℕ) (start stop : ℤ) : List ℕ :=
  let adjust := fun i : ℤ => if i < 0 then max (i + n) 0 else min i n
  let a := (adjust start).toNat
  List.range' a ((adjust stop).toNat - a)

/-- indices selected by a slice with step -1 (indices of splinepy/io/mfem.py 193-274) -/
def sliceBack (n : ℕ) (start stop : ℤ) : List ℕ :=
  let adjust := fun i : ℤ => if i < 0 then max (i + n) (-1) else min i (n - 1)
  let a := adjust start
  let b := adjust stop
  (List.range (a - b).toNat).map fun k : ℕ => (a - (k : ℤ)).toNat

/-- the index `-1`; out of range for an empty axis (indices of splinepy/io/mfem.py 193-274) -/
def last (n : ℕ) : List ℕ := [n - 1]

/-- `mi[x_ids, y_ids, ...]` with lists of equal length: one entry per position, mfem.py 201-204, 231-236; `first` is the index `0`, `true` the index `-1`. -/
def corners (res : List ℕ) (ids : List (List Bool)) : Option (List ℕ) :=
  if res.all (0 < ·) then some (ids.map fun c => flat res (List.zipWith (fun (b : Bool) r => if b then r - 1 else 0) c res)) else none

/-- `np.argsort`; the values are distinct wherever it is used here, which makes the result unique. (splinepy/io/mfem.py 220, 273) -/
def argsort (l : List ℕ) : List ℕ := (List.range l.length).insertionSort fun i j => l.getD i 0 ≤ l.getD j 0

/-- `_mfem_dof_map_2d`, mfem.py 193-220. -/
def dofMap2 (nx ny : ℕ) : Option (List ℕ × List ℕ) := do
  let mi := multiIndexGet [nx, ny]
  let vertices ← corners [nx, ny] [[false, false], [true, false], [true, true], [false, true]]
  let bottom ← mi [slice nx 1 (-1), [0]]
  let top ← mi [slice nx 1 (-1), last ny]
  let left ← mi [[0], slice ny 1 (-1)]
  let right ← mi [last nx, slice ny 1 (-1)]
  let inside ← mi [slice nx 1 (-1), slice ny 1 (-1)]
  let toM := vertices ++ (bottom ++ top.reverse ++ left ++ right) ++ inside
  some (toM, argsort toM)

/-- `_mfem_dof_map_3d`, mfem.py 223-273. -/
def dofMap3 (nx ny nz : ℕ) : Option (List ℕ × List ℕ) := do
  let mi := multiIndexGet [nx, ny, nz]
  let vertices ← corners [nx, ny, nz] [[false, false, false], [true, false, false], [true, true, false], [false, true, false],
    [false, false, true], [true, false, true], [true, true, true], [false, true, true]]
  let e1 ← mi [slice nx 1 (-1), [0], [0]]
  let e2 ← mi [slice nx 1 (-1), last ny, [0]]
  let e3 ← mi [slice nx 1 (-1), [0], last nz]
  let e4 ← mi [slice nx 1 (-1), last ny, last nz]
  let e5 ← mi [[0], slice ny 1 (-1), [0]]
  let e6 ← mi [last nx, slice ny 1 (-1), [0]]
  let e7 ← mi [[0], slice ny 1 (-1), last nz]
  let e8 ← mi [last nx, slice ny 1 (-1), last nz]
  let e9 ← mi [[0], [0], slice nz 1 (-1)]
  let e10 ← mi [last nx, [0], slice nz 1 (-1)]
  let e11 ← mi [last nx, last ny, slice nz 1 (-1)]
  let e12 ← mi [[0], last ny, slice nz 1 (-1)]
  let f1 ← mi [slice nx 1 (-1), sliceBack ny (-2) 0, [0]]
  let f2 ← mi [slice nx 1 (-1), [0], slice nz 1 (-1)]
  let f3 ← mi [last nx, slice ny 1 (-1), slice nz 1 (-1)]
  let f4 ← mi [sliceBack nx (-2) 0, last ny, slice nz 1 (-1)]
  let f5 ← mi [[0], sliceBack ny (-2) 0, slice nz 1 (-1)]
  let f6 ← mi [slice nx 1 (-1), slice ny 1 (-1), last nz]
  let inside ← mi [slice nx 1 (-1), slice ny 1 (-1), slice nz 1 (-1)]
  let toM := vertices ++ (e1 ++ e2.reverse ++ e3 ++ e4.reverse ++ e5 ++ e6 ++ e7 ++ e8 ++ e9 ++ e10 ++ e11 ++ e12) ++ (f1 ++ f2 ++ f3 ++ f4 ++ f5 ++ f6) ++ inside
  some (toM, argsort toM)

/-- `dof_mapping`, mfem.py 276-295, for the control mesh resolutions `res`. -/
def dofMapping : List ℕ → Option (List ℕ × List ℕ)
  | [nx, ny] => dofMap2 nx ny
  | [nx, ny, nz] => dofMap3 nx ny nz
  | _ => none

/-! ### Files of a single patch -/

/-- Parts of a line. Keywords are single tokens, the colon after some of them is left out. (splinepy/io/mfem.py 33-145, 508-702) -/
inductive Token (K : Type) where
  | word (w : String)
  /-- a comment, from `#` to the end of the line -/
  | comment
  | int (n : ℕ)
  | num (x : K)
deriving DecidableEq

/-- One line of a file, splinepy/io/mfem.py 33-145. -/
abbrev Line (K : Type) := List (Token K)

section
variable {K : Type} [Field K]

/-- `array[ids]` for in-range `ids` (splinepy/io/mfem.py 142-143, 187-188, 669, 678) -/
def take {α : Type} (l : List α) (ids : List ℕ) : Option (List α) := ids.mapM fun i => l[i]?

/-- Headers of `export`, mfem.py 545-635, up to `vertices`. -/
def header (paraDim : ℕ) : Option (List (Line K)) :=
  let w := fun s => [Token.word s]
  let ints := fun l : List ℕ => l.map Token.int
  let intro : List (Line K) := [w "MFEM NURBS mesh v1.0", [], [.comment], [.comment], [.comment], [.comment], [.comment], [.comment],
    [.comment], [.comment], [.comment], [], w "dimension", ints [paraDim], []]
  if paraDim = 2 then
    some (intro ++ [w "elements", ints [1], ints [1, 3, 0, 1, 2, 3], [], w "boundary", ints [4], ints [1, 1, 0, 1], ints [2, 1, 2, 3], ints [3, 1, 3, 0], ints [4, 1, 1, 2], [],
      w "edges", ints [4], ints [0, 0, 1], ints [0, 3, 2], ints [1, 0, 3], ints [1, 1, 2], [], w "vertices", ints [4], []])
  else if paraDim = 3 then
    some (intro ++ [w "elements", ints [1], ints [1, 5, 0, 1, 2, 3, 4, 5, 6, 7], [], w "boundary", ints [6], ints [1, 3, 3, 2, 1, 0], ints [2, 3, 4, 5, 6, 7], ints [3, 3, 0, 1, 5, 4],
      ints [4, 3, 1, 2, 6, 5], ints [5, 3, 2, 3, 7, 6], ints [6, 3, 3, 0, 4, 7], [], w "edges", ints [12], ints [0, 0, 1], ints [0, 3, 2], ints [0, 4, 5], ints [0, 7, 6], ints [1, 0, 3],
      ints [1, 1, 2], ints [1, 4, 7], ints [1, 5, 6], ints [2, 0, 4], ints [2, 1, 5], ints [2, 2, 6], ints [2, 3, 7], [], w "vertices", ints [8], []])
  else none

/-- `kv_sec`, mfem.py 637-660. -/
def knotLines (degrees res : List ℕ) (kvs : List (List K)) : List (Line K) :=
  [[.word "knotvectors"], [.int kvs.length]] ++
    (List.zipWith (fun (p : ℕ × ℕ) kv => Token.int p.1 :: Token.int p.2 :: kv.map Token.num) (degrees.zip res) kvs) ++ [[]]

/-- `export`, mfem.py 508-702, of a NURBS (other types are converted before, 540-543). -/
def exportFile (s : Spline K (List K)) : Option (List (Line K)) := do
  let kvs ← s.knotVectors
  let ws ← s.weights
  let res := controlMeshResolutions s
  let head ← header s.degrees.length
  let ids ← dofMapping res
  let w ← take ws ids.1
  let c ← take s.controlPoints ids.1
  some (head ++ knotLines s.degrees res kvs ++ ([[.word "weights"]] ++ w.map (fun x => [.num x]) ++ [[]])
    ++ [[.word "FiniteElementSpace"], [.word "FiniteElementCollection", .word "NURBS"], [.word "VDim", .int ((s.controlPoints.getD 0 []).length)], [.word "Ordering", .int 1], []]
    ++ (c.map (fun r => r.map .num) ++ [[]]))

/-- `_mfem_meaningful_keywords`, mfem.py 17-30. No keyword is a prefix of another one, so that at most one of them is hit (65-67). -/
def keywords : List String := ["MFEM NURBS mesh v1.0", "dimension", "elements", "boundary", "edges", "vertices", "knotvectors", "weights", "FiniteElementSpace",
  "FiniteElementCollection", "VDim", "Ordering"]

/-- `hotkeys`, mfem.py 52-56. -/
def hotkeys : List String := ["knotvectors", "weights", "Ordering"]

/-- `make_meaningful` is false, ioutils.py 8-27: blank lines and comments. -/
def meaningless (l : Line K) : Bool :=
  match l with
  | [] => true
  | .comment :: _ => true
  | _ => false

/-- `nurbs_dict`, mfem.py 57, and the section which collects lines -/
structure Sections (K : Type) where
  current : Option String
  knots : List (Line K)
  weights : List (Line K)
  ordering : List (Line K)

/-- `nurbs_dict[current_key].append(line)` (splinepy/io/mfem.py 85) -/
def Sections.add (d : Sections K) (l : Line K) : Sections K :=
  match d.current with
  | some "knotvectors" => { d with knots := d.knots ++ [l] }
  | some "weights" => { d with weights := d.weights ++ [l] }
  | some "Ordering" => { d with ordering := d.ordering ++ [l] }
  | _ => d

/-- Body of the loop mfem.py 60-87. -/
def readLine (d : Sections K) (l : Line K) : Sections K :=
  if meaningless l then d
  else match l with
    | .word w :: _ => if w ∈ hotkeys then { d with current := some w } else if w ∈ keywords then { d with current := none } else d.add l
    | _ => d.add l

/-- the token is the given word (splinepy/io/mfem.py 65, 173) -/
def Token.isWord (t : Token K) (w : String) : Bool :=
  match t with
  | .word v => v == w
  | _ => false

/-- `literal_eval` of one number (splinepy/io/mfem.py 94, 107, 111) -/
def Token.value : Token K → Option K
  | .word _ => none
  | .comment => none
  | .int n => some n
  | .num x => some x

/-- Line of a knot vector: degree, number of control points, knots, mfem.py 90-103. -/
def parseKnots (l : Line K) : Option (ℕ × ℕ × List K) :=
  match l with
  | .int p :: .int n :: kv => (kv.mapM Token.value).map fun kv => (p, n, kv)
  | _ => none

/-- A line with a single number. (splinepy/io/mfem.py 107) -/
def parseWeight (l : Line K) : Option K :=
  match l with
  | [t] => t.value
  | _ => none

/-- `load`, mfem.py 33-145. The checks of the constructor of a spline (C19) are left out. -/
def load (f : List (Line K)) : Option (Spline K (List K)) := do
  let d := f.foldl readLine ⟨none, [], [], []⟩
  let rows ← (d.knots.drop 1).mapM parseKnots
  let weights ← d.weights.mapM parseWeight
  let cps ← d.ordering.mapM fun l => l.mapM Token.value
  let degrees := rows.map fun r => r.1
  let ncps := (rows.map fun r => r.2.1).prod
  let count ← match d.knots with | [.int n] :: _ => some n | _ => none
  if ncps ≠ cps.length ∨ ncps ≠ weights.length ∨ count ≠ degrees.length then none
  else do
    let s : Spline K (List K) := ⟨degrees, some (rows.map fun r => r.2.2), some weights, cps⟩
    let ids ← dofMapping (controlMeshResolutions s)
    let c ← take cps ids.2
    let w ← take weights ids.2
    some { s with weights := some w, controlPoints := c }

/-- `next_line`, ioutils.py 30-55: lines after the next meaningful one, which is returned first; `k` is `513 - counter`. At the end of a file `readline` gives empty lines, so that
the counter reaches its limit. -/
def nextLine : ℕ → List (Line K) → Option (Line K × List (Line K))
  | _, [] => none
  | 0, _ => none
  | k + 1, l :: ls => if meaningless l then nextLine k ls else some (l, ls)

/-- The loop mfem.py 170-176: lines after the one which contains "Ordering". -/
def solutionLines : ℕ → Bool → List (Line K) → List (Line K)
  | 0, _, _ => []
  | n + 1, collect, f =>
    match nextLine 513 f with
    | none => []
    | some (l, f) =>
      if collect then l :: solutionLines n true f
      else solutionLines n (l.any fun t => t.isWord "Ordering") f

/-- `read_solution`, mfem.py 148-190: control points of the solution, weights of the reference. -/
def readSolution (f : List (Line K)) (ref : Spline K (List K)) : Option (Spline K (List K)) := do
  let sol ← (solutionLines (f.length + 1) false f).mapM fun l => l.mapM Token.value
  if ref.controlPoints.length ≠ sol.length then none
  else do
    let ids ← dofMapping (controlMeshResolutions ref)
    let c ← take sol ids.2
    let ws ← ref.weights
    let w ← take ws ids.2
    some { ref with controlPoints := c, weights := some w }

/-! ### Files of several patches -/

/-- `_corner_vertex_ids`, mfem.py 347-357 and 370-384; numbers are signed in the code. -/
def cornerVertexIds : List ℕ → Option (List ℤ)
  | [a, b] => some [0, a - 1, a * b - 1, a * ((b : ℤ) - 1)]
  | [a, b, c] => some [0, a - 1, a * b - 1, a * ((b : ℤ) - 1), ((c : ℤ) - 1) * b * a, ((c : ℤ) - 1) * b * a + a - 1, ((c : ℤ) - 1) * b * a + a * b - 1,
      ((c : ℤ) - 1) * b * a + a * ((b : ℤ) - 1)]
  | _ => none

/-- `sub_element_vertices`, mfem.py 360 and 386-395. -/
def subElementVertices : ℕ → List (List ℕ)
  | 2 => [[0, 1], [1, 2], [3, 2], [0, 3]]
  | 3 => [[0, 1, 2, 3], [1, 2, 6, 5], [3, 2, 6, 7], [0, 3, 7, 4], [0, 1, 5, 4], [4, 5, 6, 7]]
  | _ => []

/-- `splinepy_face_id_2_mfem_face_id`, mfem.py 362 and 396. -/
def mfemFace : ℕ → List ℕ
  | 2 => [3, 1, 0, 2]
  | 3 => [3, 1, 4, 2, 0, 5]
  | _ => []

/-- `array[i]` of a row for one signed index (splinepy/io/mfem.py 298-420) -/
def pyGet {α : Type} (l : List α) (i : ℤ) : Option α := (Index.pyIndex l.length i).bind fun j => l[j]?

/-- `np.where(table < 0)` as pairs of row and column, with the entries; row by row. (splinepy/io/mfem.py 414) -/
def negatives (table : List (List ℤ)) : List ((ℕ × ℕ) × ℤ) :=
  table.zipIdx.flatMap fun (row, p) => (row.zipIdx.filter fun x => x.1 < 0).map fun x => ((p, x.2), x.1)

/-- rows of the file written by `export_cartesian` (splinepy/io/mfem.py 298-505) -/
structure Cartesian (K : Type) where
  dimension : ℕ
  /-- geometry type and vertices, one row per patch; the attribute is always 1 -/
  elements : List (ℕ × List ℕ)
  /-- attribute, geometry type and vertices -/
  boundary : List (ℤ × ℕ × List ℕ)
  vertices : ℕ
  /-- degree, number of control points and knots of each direction; control points with weights -/
  patches : List (List (ℕ × ℕ × List K) × List (List K))

/-- Section of one patch, mfem.py 463-503. -/
def cartesianPatch (s : Spline K (List K)) : List (ℕ × ℕ × List K) × List (List K) :=
  let res := controlMeshResolutions s
  let knots := match s.knotVectors with
    | none => s.degrees.map fun d => List.replicate (d + 1) 0 ++ List.replicate (d + 1) 1
    | some kvs => kvs
  let points := match s.weights with
    | none => s.controlPoints.map fun c => c ++ [1]
    | some ws => List.zipWith (fun c w => c ++ [w]) s.controlPoints ws
  (List.zipWith (fun (p : ℕ × ℕ) kv => (p.1, p.2, kv)) (s.degrees.zip res) knots, points)

/-- `export_cartesian`, mfem.py 298-505. `numbers` is `inverse_numeration` of gustaf's `close_rows` for the given tolerance; the patches of a multipatch have the same dimensions (C15),
which are given here as `paraDim`, `dim`. -/
def exportCartesian (numbers : List (List K) → List ℕ) (paraDim dim : ℕ) (patches : List (Spline K (List K))) (interfaces : List (List ℤ)) : Option (Cartesian K) :=
  if ¬ (paraDim = dim ∧ (dim = 2 ∨ dim = 3)) then none
  else do
    let geometry := if paraDim = 2 then 3 else 5
    let boundaryType := if paraDim = 2 then 1 else 3
    let perElement := if paraDim = 2 then 4 else 8
    let corners ← patches.mapM fun s => do
      let ids ← cornerVertexIds (controlMeshResolutions s)
      ids.mapM fun i => pyGet s.controlPoints i
    let inverse := numbers corners.flatten
    let vertexIds := (List.range (inverse.length / perElement)).map fun p => (inverse.drop (p * perElement)).take perElement
    let boundary ← (negatives interfaces).mapM fun x => do
      let row ← vertexIds[x.1.1]?
      let face ← (mfemFace paraDim)[x.1.2]?
      let loc ← (subElementVertices paraDim)[face]?
      let ids ← loc.mapM fun k => row[k]?
      some (-x.2, boundaryType, ids)
    let top ← inverse.max?
    some ⟨dim, vertexIds.map fun r => (geometry, r), boundary, top + 1, patches.map cartesianPatch⟩

end

end Splinepy.Mfem
