import Mathlib.Algebra.Field.Basic
import Mathlib.Order.Defs.LinearOrder
import Mathlib.Data.List.Sort

/-!
Model of splitting a Bezier spline, splinepy/bezier.py 233-252 and src/py/py_spline_extensions.cpp 124-151.
-/
namespace Splinepy.Split

variable {K S : Type} [Field K] [LinearOrder K]

/-- Loop py_spline_extensions.cpp 141-146 and last piece 148: `rest` is `tmp_splitted[1]`, `prev` is `locs[i - 1]`. `split` is `SplitAtPosition` of bezman
(bezier.inl 578-594, rational_bezier.inl 613-629), which is not part of the repository. `none`: the quotient is not a number. -/
def splitLoop (split : S → K → S × S) : K → S → List K → Option (List S)
  | _, rest, [] => some [rest]
  | prev, rest, l :: ls =>
    if 1 - prev = 0 then none
    else
      let pieces := split rest ((l - prev) / (1 - prev))
      (splitLoop split l pieces.2 ls).map (pieces.1 :: ·)

/-- `BezierBase.split`, bezier.py 248-252, and `Split`, py_spline_extensions.cpp 125-151, in one direction; `none`: it raises (also `max` of an empty
list) or the result is not a number. -/
def splitAt (split : S → K → S × S) (s : S) (locations : List K) : Option (List S) :=
  if locations = [] then none
  else if locations.any (fun l => l > 1 || l < 0) then none
  else
    match locations.insertionSort (· ≤ ·) with
    | [] => none
    | l :: ls =>
      let pieces := split s l
      (splitLoop split l pieces.2 ls).map (pieces.1 :: ·)

end Splinepy.Split
