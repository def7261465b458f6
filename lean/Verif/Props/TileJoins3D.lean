import Verif.Props.TileJoins

/-!
C77, continued: `Cross3D`, `Cross3DLinear` and `HollowCube`, ordinary tiles.
-/

set_option linter.unusedSimpArgs false

namespace Splinepy.Tiles

open Spec

section
variable {K : Type} [Field K] [LinearOrder K] [IsStrictOrderedRing K]

/-- a square around the centre of a face of the unit cube -/
def Spec.square (axis : ℕ) (v r : K) : List (List K) :=
  ([[1 / 2 - r, 1 / 2 - r], [1 / 2 + r, 1 / 2 - r], [1 / 2 - r, 1 / 2 + r], [1 / 2 + r, 1 / 2 + r]] : List (List K)).map fun x => x.insertIdx axis v

theorem square_x (v r : K) : square 0 v r = [[v, 1 / 2 - r, 1 / 2 - r], [v, 1 / 2 + r, 1 / 2 - r], [v, 1 / 2 - r, 1 / 2 + r], [v, 1 / 2 + r, 1 / 2 + r]] := rfl
theorem square_y (v r : K) : square 1 v r = [[1 / 2 - r, v, 1 / 2 - r], [1 / 2 + r, v, 1 / 2 - r], [1 / 2 - r, v, 1 / 2 + r], [1 / 2 + r, v, 1 / 2 + r]] := rfl
theorem square_z (v r : K) : square 2 v r = [[1 / 2 - r, 1 / 2 - r, v], [1 / 2 + r, 1 / 2 - r, v], [1 / 2 - r, 1 / 2 + r, v], [1 / 2 + r, 1 / 2 + r, v]] := rfl

set_option maxHeartbeats 8000000 in
theorem cross3D_sides (c m a b d e f g : K) (hc : 0 < c ∧ c < 1 / 2) (hm : 0 < m ∧ m < 1 / 2) (ha : 0 < a ∧ a < 1 / 2) (hb : 0 < b ∧ b < 1 / 2)
    (hd : 0 < d ∧ d < 1 / 2) (he : 0 < e ∧ e < 1 / 2) (hf : 0 < f ∧ f < 1 / 2) (hg : 0 < g ∧ g < 1 / 2) :
    (SideIs (cross3D (1 / 2) c m a b d e f g) 0 0 [square 0 0 a] ∧ SideIs (cross3D (1 / 2) c m a b d e f g) 0 1 [square 0 1 b]) ∧
    (SideIs (cross3D (1 / 2) c m a b d e f g) 1 0 [square 1 0 d] ∧ SideIs (cross3D (1 / 2) c m a b d e f g) 1 1 [square 1 1 e]) ∧
    (SideIs (cross3D (1 / 2) c m a b d e f g) 2 0 [square 2 0 f] ∧ SideIs (cross3D (1 / 2) c m a b d e f g) 2 1 [square 2 1 g]) := by
  simp only [square_x, square_y, square_z]
  unfold cross3D
  refine ⟨⟨?_, ?_⟩, ⟨?_, ?_⟩, ?_, ?_⟩ <;>
    side [inside hc.1 hc.2, inside hm.1 hm.2, inside ha.1 ha.2, inside hb.1 hb.2, inside hd.1 hd.2, inside he.1 he.2, inside hf.1 hf.2, inside hg.1 hg.2]

set_option maxHeartbeats 8000000 in
theorem cross3DLinear_sides (c a b d e f g : K) (hc : 0 < c ∧ c < 1 / 2) (ha : 0 < a ∧ a < 1 / 2) (hb : 0 < b ∧ b < 1 / 2)
    (hd : 0 < d ∧ d < 1 / 2) (he : 0 < e ∧ e < 1 / 2) (hf : 0 < f ∧ f < 1 / 2) (hg : 0 < g ∧ g < 1 / 2) :
    (SideIs (cross3DLinear (1 / 2) c a b d e f g) 0 0 [square 0 0 a] ∧ SideIs (cross3DLinear (1 / 2) c a b d e f g) 0 1 [square 0 1 b]) ∧
    (SideIs (cross3DLinear (1 / 2) c a b d e f g) 1 0 [square 1 0 d] ∧ SideIs (cross3DLinear (1 / 2) c a b d e f g) 1 1 [square 1 1 e]) ∧
    (SideIs (cross3DLinear (1 / 2) c a b d e f g) 2 0 [square 2 0 f] ∧ SideIs (cross3DLinear (1 / 2) c a b d e f g) 2 1 [square 2 1 g]) := by
  simp only [square_x, square_y, square_z]
  unfold cross3DLinear
  refine ⟨⟨?_, ?_⟩, ⟨?_, ?_⟩, ?_, ?_⟩ <;>
    side [inside hc.1 hc.2, inside ha.1 ha.2, inside hb.1 hb.2, inside hd.1 hd.2, inside he.1 he.2, inside hf.1 hf.2, inside hg.1 hg.2]

end
end Splinepy.Tiles
