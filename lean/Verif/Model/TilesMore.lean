import Verif.Model.Tiles
import Verif.Model.TileShapesMore

/-!
Model of `create_tile` of `HollowOctagonExtrude`, `InverseCross3D` and `Armadillo`, splinepy/microstructure/tiles. Conventions as in `Model/Tiles.lean`: an exception is `none`.
None of these tiles has derivatives: any `parameter_sensitivities` raise `NotImplementedError`.
-/

namespace Splinepy.Tiles

section
variable {K : Type} [Field K] [LinearOrder K]

/-! ### `HollowOctagonExtrude` -/

/-- `HollowOctagonExtrude.create_tile`, hollow_octagon_extrude.py 22-240. A `closure` is taken by `**kwargs` and not used. (The method `closing_tile` of this class, 242-600,
is modelled in `Verif/Model/ExtrudeClosing.lean`.) -/
def createHollowOctagonExtrude (contact : K) (_closure : Option String) (parameters : Option (Mat K)) (s : Option (List (Mat K))) : Option (Tile K) :=
  let p := parameters.getD (constant 1 1 (1 / 5))
  if (decide (0 < contact) && decide (contact < 99 / 100)) && s.isNone && checkParams 1 1 p && (decide (1 / 100 < entry p 0 0) && decide (entry p 0 0 < 1 / 2)) then
    some ⟨hollowOctagonExtrude 0 (1 / 2) 1 (entry p 0 0) (contact * entry p 0 0) (contact * (1 / 2)), none⟩
  else none

/-! ### `InverseCross3D` -/

/-- The values of inverse_cross_3d.py 105-111. -/
def inverseCloseValues (f : K → K → K → K → K → K → K → K → K → List (Patch K)) (separator bound fill thickness : K) : List (Patch K) :=
  f separator (1 / 2 - 2 * (1 / 2 - separator)) fill (1 - fill) ((1 + fill) * (1 / 2)) (1 - (1 + fill) * (1 / 2)) ((1 - 2 * bound) * (1 / 2))
    (((1 - 2 * bound) * (1 / 2) + 1 / 2) * (1 / 2)) thickness

/-- `InverseCross3D._closing_tile`, inverse_cross_3d.py 36-886. -/
def inverseCross3DClosing (closure : String) (separator bound fill : K) (p : Mat K) : Option (List (Patch K)) :=
  if checkParams 6 1 p && within 0 (1 / 2) p && (decide (0 < bound) && decide (bound < 1 / 2)) && (decide (0 < fill) && decide (fill < 1)) then
    if closure = "z_min" then some (inverseCloseValues inverseCross3DCloseZMin separator bound fill (entry p 5 0))
    else if closure = "z_max" then some (inverseCloseValues inverseCross3DCloseZMax separator bound fill (entry p 4 0))
    else none
  else none

/-- `np.sum(parameters) / 6.0 * center_expansion`, inverse_cross_3d.py 985. -/
def inverseCenter (expansion : K) (p : Mat K) : K := (entry p 0 0 + entry p 1 0 + entry p 2 0 + entry p 3 0 + entry p 4 0 + entry p 5 0) / 6 * expansion

/-- inverse_cross_3d.py 975-1614. -/
def inverseCross3DTile (expansion separator : K) (p : Mat K) : List (Patch K) :=
  let center := inverseCenter expansion p
  inverseCross3D separator (1 / 2 - 2 * (1 / 2 - separator)) (1 / 2 * (1 / 2 + center)) center
    (entry p 0 0) (entry p 1 0) (entry p 2 0) (entry p 3 0) (entry p 4 0) (entry p 5 0)
    (min (entry p 0 0) center) (min (entry p 1 0) center) (min (entry p 2 0) center) (min (entry p 3 0) center) (min (entry p 4 0) center) (min (entry p 5 0) center)

/-- `np.any(parameters < min_radius) or np.any(parameters > max_radius)` is false, inverse_cross_3d.py 957-959. -/
def radiiBetween (low high : K) (p : Mat K) : Bool := p.all fun r => r.all fun x => !decide (x < low) && !decide (high < x)

/-- `InverseCross3D.create_tile`, inverse_cross_3d.py 888-1615. `separator = none` is the default 0.3. -/
def createInverseCross3D (expansion bound fill : K) (separator : Option K) (closure : Option String) (parameters : Option (Mat K)) (s : Option (List (Mat K))) : Option (Tile K) :=
  let separator := separator.getD (3 / 10)
  let p := parameters.getD (constant 6 1 (1 / 5))
  if (decide (1 / 2 < expansion) && decide (expansion < 3 / 2)) && s.isNone && checkParams 6 1 p &&
      radiiBetween (max (1 / 2 - separator) 0) (min (min (1 / 2) (1 / 2 / expansion)) separator) p then
    match closure with
    | some c => (inverseCross3DClosing c separator bound fill p).map fun t => ⟨t, none⟩
    | none => some ⟨inverseCross3DTile expansion separator p, none⟩
  else none

/-! ### `Armadillo` -/

/-- The values of armadillo.py 88-94 and 5104-5110. -/
def armadilloValues (f : K → K → K → K → K → K → List (Patch K)) (contact wall : K) : List (Patch K) := f 0 (1 / 2) 1 wall (contact * (1 / 2)) (contact * wall)

/-- `Armadillo._closing_tile`, armadillo.py 23-5029, after the checks which `create_tile` makes as well. An unknown closure leaves `right` unbound. -/
def armadilloClosing (closure : String) (contact wall : K) : Option (List (Patch K)) :=
  if closure = "x_min" then some (armadilloValues armadilloCloseXMin contact wall)
  else if closure = "x_max" then some (armadilloValues armadilloCloseXMax contact wall)
  else if closure = "y_min" then some (armadilloValues armadilloCloseYMin contact wall)
  else if closure = "y_max" then some (armadilloValues armadilloCloseYMax contact wall)
  else if closure = "z_max" then some (armadilloValues armadilloCloseZMax contact wall)
  else if closure = "z_min" then some (armadilloValues armadilloCloseZMin contact wall)
  else none

/-- `Armadillo.create_tile`, armadillo.py 5031-5984. -/
def createArmadillo (contact : K) (closure : Option String) (parameters : Option (Mat K)) (s : Option (List (Mat K))) : Option (Tile K) :=
  let p := parameters.getD (constant 1 1 (1 / 5))
  if (decide (0 < contact) && decide (contact < 99 / 100)) && s.isNone && checkParams 1 1 p && within 0 (1 / 2) p then
    match closure with
    | some c => (armadilloClosing c contact (entry p 0 0)).map fun t => ⟨t, none⟩
    | none => some ⟨armadilloValues armadillo contact (entry p 0 0), none⟩
  else none

end

end Splinepy.Tiles
