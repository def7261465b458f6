import Verif.Model.TilesMore

/-!
Model of `HollowOctagonExtrude.closing_tile`, the only closing function of a tile which is public and which `create_tile` does not call.
-/

namespace Splinepy.Tiles

variable {K : Type} [Field K] [LinearOrder K]

/-- `HollowOctagonExtrude.closing_tile`, splinepy/microstructure/tiles/hollow_octagon_extrude.py 218-600. The control points of the four closures (287-580) and the order of the
patches (582-598) are those of hollow_octagon.py 88-399, whose model is reused. `contact_length` is not checked. No closure, wrong parameters, sensitivities and any other
closure (no array is bound) are exceptions, `none`. Numbers as closures (the docstring, 237-241) match no name either: `none` as well, the argument here is the name. -/
def closingHollowOctagonExtrude (parameters : Option (Mat K)) (s : Option (List (Mat K))) (contact : K) (closure : Option String) : Option (Tile K) :=
  match closure with
  | none => none                                                                                            -- 250-251
  | some c =>
    let p := parameters.getD (constant 1 1 (1 / 5))                                                         -- 253-260
    if within 0 (1 / 2) (p.take 1) && checkParams 1 1 p && s.isNone &&                                      -- 262-272
        (decide (1 / 100 < entry p 0 0) && decide (entry p 0 0 < 1 / 2)) then                               -- 274-278
      let build := fun f : K → K → K → K → K → K → List (Patch K) => f 0 (1 / 2) 1 (entry p 0 0) (contact * entry p 0 0) (contact * (1 / 2))  -- 280-285
      if c = "x_min" then some ⟨build hollowOctagonCloseXMin, none⟩                                         -- 287-359
      else if c = "x_max" then some ⟨build hollowOctagonCloseXMax, none⟩                                    -- 361-432
      else if c = "y_min" then some ⟨build hollowOctagonCloseYMin, none⟩                                    -- 434-506
      else if c = "y_max" then some ⟨build hollowOctagonCloseYMax, none⟩                                    -- 508-580
      else none
    else none

end Splinepy.Tiles
