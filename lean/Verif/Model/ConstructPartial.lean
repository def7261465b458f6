import Verif.Model.SplineCore

/-!
Model of the constructors when properties are missing. `BSpline`, `NURBS`, `Bezier` and `RationalBezier` hand all of their properties to `Spline.__init__`, the missing ones as `None`, and `__init__` assigns
whatever is in its keyword arguments: assigning `None` to a property clears the spline. `Spline(…)` hands over only what was given. (`Model/SplineCore.construct` is for complete properties.)
-/
namespace Splinepy.SplineCore

variable {K : Type} [Field K] [LinearOrder K]

/-- `setattr(self, to_set, kwargs[to_set])` for a property of the constructors of the four classes, where a missing one is `None` and clears. (splinepy/spline.py 430-432, 794-797, 854-857, 978-981, 1119-1123; splinepy/bspline.py
461-473, splinepy/bezier.py 356-361, splinepy/rational_bezier.py 115-123, splinepy/nurbs.py 144-158) -/
def argument {α : Type} (op : α → Op K) : Option α → List (Op K)
  | some x => [op x]
  | none => [.clear]

/-- The constructors: `Spline` takes what is given in the order weights, control points, knot vectors, degrees; the others assign all of their required properties in order. `none`: exception. (splinepy/spline.py 411-433) -/
def initialise (maxDim : ℕ) (cls : Cls) (p : Props K) : Option (State K) :=
  if cls = .spline then construct maxDim cls p
  else run maxDim cls {} (argument .degrees p.degrees ++ (if cls.requiresKvs then argument .kvs p.kvs else []) ++ argument .cps p.cps ++ (if cls.requiresWs then argument .ws p.ws else []))

/-- `PySpline::Core()`: raises if there is none. (src/py/py_spline.cpp 231-249) -/
def coreOrRaise (s : State K) : Option (Core K) := s.core

/-- The field of a microstructure that is made of the sensitivities of a tile: `type(patch_info[0])(patch_info[0].degrees, control_points)`, where the sensitivities of a rational composition are `RationalBezier`; the field is
then converted to cores. `rational`: the deformation function or the tile is rational. (splinepy/microstructure/microstructure.py 628-656; include/splinepy/splines/rational_bezier.inl 372-404;
src/py/py_multipatch.cpp 58-86) -/
def macroField (maxDim : ℕ) (rational : Bool) (patches : List (List Int × Mat K)) : Option (List (Core K)) :=
  patches.mapM fun p => (initialise maxDim (if rational then .rationalBezier else .bezier) ⟨some p.1, none, some p.2, none⟩).bind coreOrRaise

end Splinepy.SplineCore
