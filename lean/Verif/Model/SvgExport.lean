import Verif.Model.Svg
import Verif.Model.Mesh
import Mathlib.Algebra.Order.Floor.Ring

/-!
Model of the SVG export, splinepy/io/svg.py: the view box, control meshes, the scalar bar, the crop of field pictures and colours. Coordinates are numbers; their decimal representation is
not modelled.
-/
namespace Splinepy.Svg
open Splinepy.Index

variable {K : Type} [Field K] [LinearOrder K]

/-- what `export` accepts: splines and gustaf's `Vertices` (splinepy/io/svg.py 1154-1288) -/
inductive Object (K : Type) where
  | spline (s : Spline K (List K))
  | vertices (points : List (List K))

/-- the points whose bounds count: `control_point_bounds` and `bounds()` (svg.py 1292-1296) -/
def Object.points : Object K → List (List K)
  | .spline s => s.controlPoints
  | .vertices v => v

/-- the checks of svg.py 1278-1288; the dimension of a point list is the length of its rows -/
def Object.accepted : Object K → Bool
  | .spline s => (1 ≤ s.degrees.length && s.degrees.length ≤ 2) && s.controlPoints.all (fun p => p.length = 2)
  | .vertices v => v.all (fun p => p.length = 2)

/-- `fmin`, which ignores nan (`none`) (splinepy/io/svg.py 1297) -/
def fmin : Option K → Option K → Option K
  | some a, some b => some (min a b)
  | some a, none => some a
  | none, b => b

/-- `fmax`, which ignores nan (`none`) (splinepy/io/svg.py 1298) -/
def fmax : Option K → Option K → Option K
  | some a, some b => some (max a b)
  | some a, none => some a
  | none, b => b

/-- lower bound of coordinate `k` over all objects, svg.py 1290-1298. `min` of no points raises, here `none`. -/
def lowerBound (objects : List (Object K)) (k : ℕ) : Option (Option K) :=
  objects.foldlM (fun acc o => (o.points.map (·.getD k 0)).min?.map fun b => fmin (some b) acc) none

/-- upper bound of coordinate `k` over all objects, svg.py 1290-1298 -/
def upperBound (objects : List (Object K)) (k : ℕ) : Option (Option K) :=
  objects.foldlM (fun acc o => (o.points.map (·.getD k 0)).max?.map fun b => fmax (some b) acc) none

/-- view box and offsets (splinepy/io/svg.py 1300-1350) -/
structure Window (K : Type) where
  minX : K
  maxY : K
  width : K
  height : K

/-- view box and offsets, svg.py 1327-1350; `bar` is the scalar bar's offset if a scalar bar is requested. `none`: an exception, or an empty list of objects, whose view box is nan. -/
def window (objects : List (Object K)) (margin : K) (bar : Option K) : Option (Window K) :=
  if objects.all Object.accepted then
    (lowerBound objects 0).bind fun x0 => (upperBound objects 0).bind fun x1 => (lowerBound objects 1).bind fun y0 => (upperBound objects 1).bind fun y1 =>
      x0.bind fun x0 => x1.bind fun x1 => y0.bind fun y0 => y1.map fun y1 =>
        ⟨x0 - margin, y1 + margin, x1 - x0 + 2 * margin,
          match bar with
          | none => y1 - y0 + 2 * margin
          | some offset => (y1 - y0 + 2 * margin) * (1 + offset * 2)⟩
  else none

/-- the polylines of the control mesh, svg.py 403-441. `none` is an IndexError. -/
def controlMesh (minX maxY : K) (s : Spline K (List K)) : Option (List (List (K × K))) :=
  let polyline (ids : List ℕ) := ids.mapM fun i => s.controlPoints[i]?.map (place minX maxY)
  let res := controlMeshResolutions s
  match res with
  | [_] => some [s.controlPoints.map (place minX maxY)]
  | [n, m] =>
    ((List.range m).mapM fun i => (multiIndexGet res [List.range n, [i]]).bind polyline).bind fun first =>
      ((List.range n).mapM fun i => (multiIndexGet res [[i], List.range m]).bind polyline).map fun second => first ++ second
  | _ => some []

/-- the circles of the control points, svg.py 463-470, and of vertices, 287-295 -/
def circles (minX maxY : K) (points : List (List K)) : List (K × K) := points.map (place minX maxY)

/-- the picture of the scalar bar: left, top, right, bottom in coordinates of the view box, svg.py 710-730 with 238-246. `box_size` is the view box, `relWidth` is `scalarbar_width`,
`aspect` is `scalarbar_aspect_ratio`; the bounds of the sampled box are those of its corners. -/
def scalarBar (width height relWidth aspect offset : K) : K × K × K × K :=
  let barHeight := relWidth / aspect
  let minX := width * (1 - relWidth) / 2
  let maxX := width * (1 + relWidth) / 2
  let centerY := height * offset / (1 + 2 * offset)
  let minY := centerY + width * barHeight / 2
  let maxY := centerY - width * barHeight / 2
  -- corners of the box: `box(max_x - min_x, max_y - min_y)` moved by `[min_x, min_y]`
  let x0 := min minX (minX + (maxX - minX))
  let x1 := max minX (minX + (maxX - minX))
  let y0 := min minY (minY + (maxY - minY))
  let y1 := max minY (minY + (maxY - minY))
  (x0, height - y1, x0 + (x1 - x0), height - y1 + (y1 - y0))

/-- positions and labels of the ticks, svg.py 762-764 -/
def ticks (width relWidth vmin vmax : K) (n : ℕ) : List (K × K) :=
  List.zip (Mesh.linspace (width * (1 - relWidth) / 2) (width * (1 + relWidth) / 2) n) (Mesh.linspace vmin vmax n)

/-- the crop of a bitmap to its visible pixels, svg.py 228-236: `visible` has one list per row. `none`: `min` of an empty array. The slices exclude their end. -/
def crop {P : Type} (visible : P → Bool) (bitmap : List (List P)) (width : ℕ) : Option (List (List P)) :=
  let rows := (List.range bitmap.length).filter fun i => (bitmap.getD i []).any visible
  let columns := (List.range width).filter fun j => bitmap.any fun row => (row[j]?.map visible).getD false
  rows.min?.bind fun r0 => rows.max?.bind fun r1 => columns.min?.bind fun c0 => columns.max?.map fun c1 =>
    ((bitmap.take r1).drop r0).map fun row => (row.take c1).drop c0

/-- `int(x)` of a float: rounds towards zero (splinepy/io/svg.py 40) -/
def truncate [FloorRing K] (x : K) : ℤ := if 0 ≤ x then ⌊x⌋ else ⌈x⌉

/-- the format `02x` of an integer: sign and hexadecimal digits, filled with zeros after the sign to at least two characters (splinepy/io/svg.py 40) -/
def hex2 (n : ℤ) : List Char :=
  let digits := Nat.toDigits 16 n.natAbs
  if n < 0 then '-' :: (List.replicate (1 - digits.length) '0' ++ digits) else List.replicate (2 - digits.length) '0' ++ digits

/-- `_rgb_2_hex`, svg.py 23-40 -/
def rgbHex [FloorRing K] (r g b : K) : List Char := '#' :: (hex2 (truncate (255 * r)) ++ hex2 (truncate (255 * g)) ++ hex2 (truncate (255 * b)))

end Splinepy.Svg
