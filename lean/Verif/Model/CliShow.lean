import Verif.Model.Display
import Mathlib.Data.Int.Notation

/-!
Model of `splinepy show`, splinepy/cli.py 30-62 and the options of the command in `entry` (splinepy/cli.py 117-163). Loading is `io.load` (`Verif/Model/Convert.lean`) and enters with its
result; `splinepy.show` is the function of gustaf (splinepy/__init__.py 1), which shows every object by its `showable`.
-/
namespace Splinepy.CliShow
open Splinepy.Display Splinepy.ShowOptions

/-- The command line: which of the options are given. `resolution` is the text after `-r`, as the integer it stands for if it does (cli.py 117-163). -/
structure Command where
  output : Bool
  interactive : Bool
  noControlPoints : Bool
  noKnotVectors : Bool
  noCpIds : Bool
  noControlMesh : Bool
  resolution : Option (Option ℤ)

/-- `action="store_false"`: the value is true unless the option is given (cli.py 134-157) -/
def storeFalse (given : Bool) : Bool := !given

/-- the values of the options, cli.py 54-57 -/
def values (c : Command) : List (String × Bool) :=
  [("knots", storeFalse c.noKnotVectors), ("control_points", storeFalse c.noControlPoints), ("control_point_ids", storeFalse c.noCpIds),
    ("control_mesh", storeFalse c.noControlMesh)]

/-- the options set for every loaded object, cli.py 53-57 -/
def setOptions (c : Command) (s : Subject) : Subject := { s with options := overridden (valid s.multipatch) s.options (values c) }

/-- what the command does: the objects shown for every loaded object, the resolution set (if any), whether the window is interactive and closed at the end, whether the picture is written to the
output file, whether the warning is printed that it is not (cli.py 41-62) -/
structure Effect where
  shown : List (List Element)
  resolution : Option ℤ
  interactive : Bool
  close : Bool
  written : Bool
  warned : Bool
deriving DecidableEq

/-- `show`, cli.py 30-62; `none` if it raises: `int` of a resolution that is not an integer (59), if there is an object -/
def show_ (c : Command) (loaded : List Subject) : Option Effect :=
  let interactive := c.interactive || !c.output
  let close := !c.output
  let shown := loaded.map fun s => makeShowable s (setOptions c s).options
  match c.resolution with
  | some none => if loaded.isEmpty then some ⟨shown, none, interactive, close, c.output, interactive && !close⟩ else none
  | some (some r) => some ⟨shown, some r, interactive, close, c.output, interactive && !close⟩
  | none => some ⟨shown, none, interactive, close, c.output, interactive && !close⟩

end Splinepy.CliShow
