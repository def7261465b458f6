import Mathlib.Data.Nat.Notation

/-!
Model of `Microstructure.show` with the saved microstructure (splinepy/microstructure/microstructure.py 658-705). What `create` and `create_tile` compute is a parameter (it is modelled in `Micro`
and its companions): `build` from the settings (deformation function, tiling, tile, functions) and the keyword arguments, and `tile`; `none` if they raise. Of the show options of a microstructure
only `control_points` matters. Windows are gustaf's; a window is what it is given.
-/
namespace Splinepy.MicroShow

/-- a multipatch made by `create`, with its show option `control_points` (microstructure.py 658, 696) -/
structure Made (M : Type) where
  patches : M
  controlPoints : Option Bool
deriving DecidableEq

/-- A `Microstructure`: its settings, the microstructures made so far, which the user holds, and the one saved in `_microstructure` (microstructure.py 658, 684-685). -/
structure World (S M : Type) where
  settings : S
  made : List (Made M)
  saved : Option ℕ

/-- the three panels of the window (microstructure.py 699-705); the option is read when the microstructure is drawn (visualize.py 500), by default control points are drawn -/
structure Window (S T M : Type) where
  deformation : S
  tile : T
  structure_ : M
  controlPoints : Bool
deriving DecidableEq

/-- what a user does: assign settings (the setters, microstructure.py 73-243), `create`, `show`, or set the option of a microstructure -/
inductive Op (S A : Type) where
  | change (f : S → S)
  | create (kwargs : A)
  | show_ (useSaved : Bool) (kwargs : A)
  | setOption (i : ℕ) (v : Bool)

section
variable {S A T M : Type} (build : S → A → Option M) (tile : S → A → Option T)

/-- `create`, microstructure.py 427-666 as far as `_microstructure` is concerned: `none` if it raises, which leaves everything as it was -/
def create (w : World S M) (kwargs : A) : Option (World S M × ℕ) :=
  (build w.settings kwargs).map fun m => ({ w with made := w.made ++ [⟨m, none⟩], saved := some w.made.length }, w.made.length)

/-- assigning the option `control_points` of a microstructure (microstructure.py 696) -/
def setOption (w : World S M) (i : ℕ) (v : Bool) : World S M :=
  { w with made := w.made.modify i fun x => { x with controlPoints := some v } }

/-- microstructure.py 683-690: the microstructure to show; `none` if it raises -/
def pick (w : World S M) (useSaved : Bool) (kwargs : A) : Option (World S M × ℕ) :=
  if useSaved then w.saved.map fun i => (w, i) else create build w kwargs

/-- `show`, microstructure.py 668-705: the world afterwards and the window, `none` if it raises -/
def showCall (w : World S M) (useSaved : Bool) (kwargs : A) : World S M × Option (Window S T M) :=
  match pick build w useSaved kwargs with
  | none => (w, none)
  | some (w1, i) =>
    match tile w1.settings kwargs with
    | none => (w1, none)
    | some t =>
      let w2 := setOption w1 i false
      (w2, (w2.made[i]?).map fun x => ⟨w2.settings, t, x.patches, x.controlPoints.getD true⟩)

/-- one step of a user (microstructure.py 73-243, 427-705) -/
def step (w : World S M) : Op S A → World S M
  | .change f => { w with settings := f w.settings }
  | .create kwargs => ((create build w kwargs).map (·.1)).getD w
  | .show_ useSaved kwargs => (showCall build tile w useSaved kwargs).1
  | .setOption i v => setOption w i v

/-- a new `Microstructure` (microstructure.py 16-57) -/
def start (s : S) : World S M := ⟨s, [], none⟩

/-- a history (microstructure.py 73-243, 427-705) -/
def run (s : S) (h : List (Op S A)) : World S M := h.foldl (step build tile) (start s)

end

end Splinepy.MicroShow
