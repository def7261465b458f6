import Mathlib.Analysis.SpecialFunctions.Complex.Arg

/-!
Model of the arrows of the SVG export, `_quiver_plot`, splinepy/io/svg.py 510-654. Over the real numbers; `arctan2(y, x)` is the argument of `x + i y`.
-/
namespace Splinepy.Quiver

/-- options of the arrow's shape and of the plot (splinepy/io/svg.py 510-654) -/
structure Options where
  width : ℝ
  headWidth : ℝ
  headLength : ℝ
  headaxisLength : ℝ
  tolerance : ℝ
  scale : ℝ
  /-- `arrow_data_color` is set -/
  coloured : Bool

/-- `default_arrow_control_points_`, svg.py 556-566 -/
noncomputable def defaultArrow (o : Options) : List (ℝ × ℝ) :=
  [(0, -o.width), (1 - o.headaxisLength, -o.width), (1 - o.headLength, -o.headWidth), (1, 0), (1 - o.headLength, o.headWidth), (1 - o.headaxisLength, o.width), (0, o.width)].map
    fun p => (p.1 * 1, p.2 * (1 / 2))

/-- `np.linalg.norm(directions, axis=1)` (splinepy/io/svg.py 510-654) -/
noncomputable def length (d : ℝ × ℝ) : ℝ := Real.sqrt (d.1 ^ 2 + d.2 ^ 2)

/-- the points of one arrow, svg.py 599-604, 621-629, 645-647: rotated by the angle of the direction, stretched by its length, scaled, moved to the position -/
noncomputable def arrow (o : Options) (position direction : ℝ × ℝ) : List (ℝ × ℝ) :=
  let angle := Complex.arg ⟨direction.1, direction.2⟩
  (defaultArrow o).map fun p =>
    (length direction * (Real.cos angle * p.1 + -Real.sin angle * p.2) * o.scale + position.1,
      length direction * (Real.sin angle * p.1 + Real.cos angle * p.2) * o.scale + position.2)

/-- all arrows in coordinates of the picture, svg.py 591-654: arrows above the tolerance. Without a colour the range of the lengths is computed even if `vmin` and `vmax` are given, as the
default of `get`; `min` of no lengths raises (`none`). -/
noncomputable def quiver (o : Options) (minX maxY : ℝ) (arrows : List ((ℝ × ℝ) × ℝ × ℝ)) : Option (List (List (ℝ × ℝ))) :=
  open Classical in
  let kept := arrows.filter fun a => decide (length a.2 > o.tolerance)
  if o.coloured = false ∧ kept = [] then none
  else some (kept.map fun a => (arrow o a.1 a.2).map fun p => (p.1 - minX, maxY - p.2))

end Splinepy.Quiver
