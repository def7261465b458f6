import Mathlib.Data.List.Basic
import Mathlib.Algebra.Order.Ring.Int

/-!
Model of the settings of microstructures: `splinepy/microstructure/microstructure.py` 14-243 (constructor and setters), 283-290 (the tiling is
changed during `create`), 427-496 (start of `create`), 707-795 (`_sanity_check`), 797-856 (`_UserTile`).

`D` is the type of deformation functions, `E` of the evaluation points of tiles. Lists of the user are numbered, their contents are in the
world, because the setter keeps the list itself. Functions of the user are represented by the answer to the checks of their result: an array
(for the parametrization), an array with three axes (for the sensitivities); a function that raises counts as one with a wrong result. What `create` does after the checks is a function of
the settings it uses (C37, C112, C115), so here it returns these settings.
-/
namespace Splinepy.MicroSettings

/-- A tile object: whether it has `create_tile`, its `dim` and `evaluation_points` if it has them (microstructure.py 731-742, 766-771). -/
structure Tile (E : Type) where
  hasCreate : Bool
  dim : Option ℕ
  points : Option E

/-- `_tiling`: an integer, a list of the user, or a list made by `_sanity_check` (microstructure.py 124, 752-753). -/
inductive Tiling where
  | int (n : ℤ)
  | shared (k : ℕ)
  | own (l : List ℤ)

/-- Attributes of a microstructure (microstructure.py 14-243). -/
structure Obj (D E : Type) where
  deformation : Option D := none
  tiling : Option Tiling := none
  microtile : Option (Tile E) := none
  parametrization : Option (E → Bool) := none
  sensitivity : Option (E → Bool) := none

/-- Microstructures and lists of the user (microstructure.py 14-243). -/
structure World (D E : Type) where
  lists : ℕ → List ℤ
  objs : ℕ → Obj D E

/-- Values assigned to `tiling` (microstructure.py 120-124). -/
inductive TilingValue where
  | int (n : ℤ)
  | list (k : ℕ)
  | other

/-- Values assigned to `microtile`: a list of splines (their dimensions, `none` for something else in the list), or an object
(microstructure.py 153-157, 808-836). -/
inductive TileValue (E : Type) where
  | splines (dims : List (Option ℕ))
  | object (t : Tile E)

/-- Values assigned to `parameter_sensitivity_function` (microstructure.py 234-243). -/
inductive SensValue (E : Type) where
  | nothing
  | function (f : E → Bool)
  | other

/-- What `create` works with (microstructure.py 427-624). -/
structure Settings (D E : Type) where
  deformation : D
  tiling : List ℤ
  microtile : Tile E
  parametrization : Option (E → Bool)
  sensitivity : Option (E → Bool)

/-- How a call ends (microstructure.py 427-666). -/
inductive Answer (D E : Type) where
  | returned
  | raised
  | made (s : Settings D E)

section
variable {D E : Type} (paraDim : D → ℕ) (spans : D → List ℕ) (normalise : D → D)

/-- Contents of a tiling; an integer has none (microstructure.py 752-758). -/
def entries (lists : ℕ → List ℤ) : Tiling → List ℤ
  | .int _ => []
  | .shared k => lists k
  | .own l => l

/-- Lines 760-793: result of the user's functions for the evaluation points of the tile. (microstructure.py) -/
def functionsFit (o : Obj D E) (t : Tile E) : Bool :=
  match o.parametrization with
  | none => true
  | some f =>
    match t.points with
    | none => false
    | some e =>
      if f e then
        match o.sensitivity with
        | none => true
        | some g => g e
      else false

/-- `_sanity_check`, microstructure.py 707-795: the object afterwards, and `none` if it raised, else its result. (The setter of the tiling, called in
line 753, checks again, with the same result.) -/
def sanityCheck (lists : ℕ → List ℤ) (o : Obj D E) : Obj D E × Option Bool :=
  match o.deformation, o.microtile, o.tiling with
  | some d, some t, some ti =>
    if t.hasCreate then
      match t.dim with
      | none => (o, none)
      | some m =>
        if paraDim d = m then
          let ti' := match ti with
            | .int n => .own (List.replicate (paraDim d) n)
            | ti => ti
          let o' := { o with tiling := some ti' }
          if (entries lists ti').length = paraDim d then
            if functionsFit o t then (o', some true) else (o', none)
          else (o', none)
        else (o, none)
    else (o, none)
  | _, _, _ => (o, some false)

/-- `_UserTile.__init__`, microstructure.py 808-836: `none` if it raises (something else than a spline; an empty list, line 833; different dimensions). -/
def userTile (dims : List (Option ℕ)) : Option (Tile E) :=
  match dims with
  | some m :: rest => if rest.all (· == some m) then some ⟨true, some m, none⟩ else none
  | _ => none

/-- Assignments and calls (microstructure.py 39-243, 427-666). -/
inductive Op (D E : Type) where
  | setDeformation (i : ℕ) (v : Option D)
  | setTiling (i : ℕ) (v : TilingValue)
  | setMicrotile (i : ℕ) (v : TileValue E)
  | setParametrization (i : ℕ) (v : Option (E → Bool))
  | setSensitivity (i : ℕ) (v : SensValue E)
  | create (i : ℕ) (knotSpanWise : Bool)

/-- Replace object `i`. (microstructure.py 39-243) -/
def World.put (w : World D E) (i : ℕ) (o : Obj D E) : World D E := { w with objs := fun j => if j = i then o else w.objs j }

/-- End of every setter: store, then check. (microstructure.py 85-90, 124-126, 157-159, 196-197, 236-243) -/
def storeAndCheck (w : World D E) (i : ℕ) (o : Obj D E) : World D E × Answer D E :=
  let r := sanityCheck paraDim w.lists o
  (w.put i r.1, if r.2.isSome then .returned else .raised)

/-- Lines 283-290: too small numbers of tiles are replaced in the list itself. (microstructure.py) -/
def enlarge (spans : List ℕ) (l : List ℤ) : List ℤ :=
  l.zipIdx.map fun p => let n : ℤ := spans.getD p.2 0; if p.1 < n then n else p.1

/-- `create`, microstructure.py 427-496 and 262-310. -/
def create (w : World D E) (i : ℕ) (knotSpanWise : Bool) : World D E × Answer D E :=
  match sanityCheck paraDim w.lists (w.objs i) with
  | (o, some true) =>
    let w := w.put i o
    match o.deformation, o.microtile, o.tiling with
    | some d, some t, some ti =>
      if o.sensitivity.isSome && o.parametrization.isNone then (w, .raised)                     -- 492-496
      else
        let l := entries w.lists ti
        let made := .made ⟨d, l, t, o.parametrization, o.sensitivity⟩
        if knotSpanWise then (w, made)
        else match ti with
          | .shared k => ({ w with lists := fun j => if j = k then enlarge (spans d) l else w.lists j }, made)
          | _ => (w.put i { o with tiling := some (.own (enlarge (spans d) l)) }, made)
    | _, _, _ => (w, .raised)
  | (o, _) => (w.put i o, .raised)

/-- One call; the setters refuse values of a wrong type before storing anything. (microstructure.py 39-243, 427-496) -/
def step (w : World D E) : Op D E → World D E × Answer D E
  | .setDeformation i v =>
    match v with
    | some d => storeAndCheck paraDim w i { w.objs i with deformation := some (normalise d) }   -- 80-90
    | none => (w, .raised)
  | .setTiling i v =>
    match v with
    | .int n => storeAndCheck paraDim w i { w.objs i with tiling := some (.int n) }             -- 120-126
    | .list k => storeAndCheck paraDim w i { w.objs i with tiling := some (.shared k) }
    | .other => (w, .raised)
  | .setMicrotile i v =>
    match v with
    | .splines dims =>
      match userTile dims with
      | some t => storeAndCheck paraDim w i { w.objs i with microtile := some t }               -- 153-159
      | none => (w, .raised)
    | .object t => storeAndCheck paraDim w i { w.objs i with microtile := some t }
  | .setParametrization i v =>
    match v with
    | some f => storeAndCheck paraDim w i { w.objs i with parametrization := some f }           -- 192-197
    | none => (w, .raised)
  | .setSensitivity i v =>
    match v with
    | .nothing => storeAndCheck paraDim w i { w.objs i with sensitivity := none }               -- 234-238
    | .function g => storeAndCheck paraDim w i { w.objs i with sensitivity := some g }          -- 241-243
    | .other => (w, .raised)
  | .create i k => create paraDim spans w i k

/-- New microstructures, and the lists of the user. (microstructure.py 14-46) -/
def start (lists : ℕ → List ℤ) : World D E := ⟨lists, fun _ => {}⟩

/-- A history; exceptions are caught by the user. (microstructure.py 39-243, 427-666) -/
def run (w : World D E) (ops : List (Op D E)) : World D E := ops.foldl (fun w op => (step paraDim spans normalise w op).1) w

end

end Splinepy.MicroSettings
