/-!
Model of how `show` (splinepy/helpme/visualize.py 564-587) and `svg.export` (splinepy/io/svg.py 1356-1403) override the show options of splines for the time of one call. The option classes
are gustaf's: setting an option that is not valid raises, which is caught and ignored; `copy_valid_options` to an object of the same class copies all options.
-/
namespace Splinepy.ShowOptions

/-- the options that are set (used in splinepy/helpme/visualize.py 564-587) -/
abbrev Options (V : Type) := String → Option V

/-- an option is set if it is valid (visualize.py 572-580, svg.py 1365-1369) -/
def setOption {V : Type} (valid : String → Bool) (o : Options V) (kv : String × V) : Options V :=
  if valid kv.1 then fun k => if k = kv.1 then some kv.2 else o k else o

/-- options of the call: a copy of those of the spline, then the keyword arguments (splinepy/helpme/visualize.py 564-587, splinepy/io/svg.py 1356-1403) -/
def overridden {V : Type} (valid : String → Bool) (o : Options V) (kwargs : List (String × V)) : Options V := kwargs.foldl (setOption valid) o

/-- outcome of a call (splinepy/helpme/visualize.py 564-587, splinepy/io/svg.py 1356-1403) -/
inductive Outcome where
  | done
  | raised
deriving DecidableEq

/-- the work done with the options of the spline: an outcome, and the options afterwards, which it may change (`_quiver_plot` sets `arrow_data_scale`, svg.py 573-589) -/
abbrev Work (V : Type) := Options V → Outcome × Options V

/-- `show`, visualize.py 564-587: options after the call and outcome. `_show_options` is replaced by the overridden copy if there are keyword arguments, and set back if the work is done. -/
def showCall {V : Type} (valid : String → Bool) (work : Work V) (kwargs : List (String × V)) (o : Options V) : Outcome × Options V :=
  if kwargs = [] then work o
  else
    let r := work (overridden valid o kwargs)
    match r.1 with
    | .done => (.done, o)
    | .raised => (.raised, r.2)

/-- the loop of `export` over the objects, svg.py 1356-1403; the first exception ends it. `kwargs` always contains `scalarbar_offset` (1304). -/
def exportLoop {V : Type} (valid : String → Bool) (kwargs : List (String × V)) : List (Work V × Options V) → Outcome × List (Options V)
  | [] => (.done, [])
  | (work, o) :: l =>
    let r := showCall valid work kwargs o
    match r.1 with
    | .done => let rest := exportLoop valid kwargs l; (rest.1, r.2 :: rest.2)
    | .raised => (.raised, r.2 :: l.map (·.2))

/-- `export`, svg.py 1304, 1356-1403: the default offset is added to the keyword arguments -/
def exportCall {V : Type} (valid : String → Bool) (offset : V) (kwargs : List (String × V)) (objects : List (Work V × Options V)) : Outcome × List (Options V) :=
  exportLoop valid (if kwargs.any (·.1 = "scalarbar_offset") then kwargs else kwargs ++ [("scalarbar_offset", offset)]) objects

end Splinepy.ShowOptions
