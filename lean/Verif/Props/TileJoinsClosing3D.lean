import Verif.Props.TileJoins3D

/-!
C77, continued: closing tiles of `Cross3D` and `Cross3DLinear`, joins of all their tiles.
-/

set_option linter.unusedSimpArgs false

namespace Splinepy.Tiles

open Spec

section
variable {K : Type} [Field K] [LinearOrder K] [IsStrictOrderedRing K]

theorem side_append {t u : List (Patch K)} {axis : ℕ} {v : K} {l m : List (List (List K))} (ht : SideIs t axis v l) (hu : SideIs u axis v m) :
    SideIs (t ++ u) axis v (l ++ m) := by
  intro f
  have e : faces (t ++ u) = faces t ++ faces u := by simp [faces]
  rw [e, List.mem_append, List.mem_append, ← ht f, ← hu f]
  tauto

/-- one block of a closing tile -/
def block (x0 x1 y0 y1 z0 z1 : K) : Patch K := ⟨[1, 1, 1], [[x0, y0, z0], [x1, y0, z0], [x0, y1, z0], [x1, y1, z0], [x0, y0, z1], [x1, y0, z1], [x0, y1, z1], [x1, y1, z1]]⟩

/-- all blocks of a closing tile -/
def blocks (w lo hi z0 z1 : K) : List (Patch K) :=
  [block 0 w 0 w z0 z1, block 0 w (1 - w) 1 z0 z1, block (1 - w) 1 0 w z0 z1, block (1 - w) 1 (1 - w) 1 z0 z1, block w (1 - w) w (1 - w) z0 z1,
   block lo w w (1 - w) z0 z1, block w (1 - w) lo w z0 z1, block (1 - w) hi w (1 - w) z0 z1, block w (1 - w) (1 - w) hi z0 z1]

/-- the connection to the neighbour, `Cross3D` -/
def branch (r0 r1 r2 z0 z1 z2 : K) : Patch K :=
  ⟨[1, 1, 2], [[1 / 2 - r0, 1 / 2 - r0, z0], [1 / 2 + r0, 1 / 2 - r0, z0], [1 / 2 - r0, 1 / 2 + r0, z0], [1 / 2 + r0, 1 / 2 + r0, z0],
    [1 / 2 - r1, 1 / 2 - r1, z1], [1 / 2 + r1, 1 / 2 - r1, z1], [1 / 2 - r1, 1 / 2 + r1, z1], [1 / 2 + r1, 1 / 2 + r1, z1],
    [1 / 2 - r2, 1 / 2 - r2, z2], [1 / 2 + r2, 1 / 2 - r2, z2], [1 / 2 - r2, 1 / 2 + r2, z2], [1 / 2 + r2, 1 / 2 + r2, z2]]⟩

/-- the connection to the neighbour, `Cross3DLinear` -/
def branchLinear (r0 r2 z0 z2 : K) : Patch K :=
  ⟨[1, 1, 1], [[1 / 2 - r0, 1 / 2 - r0, z0], [1 / 2 + r0, 1 / 2 - r0, z0], [1 / 2 - r0, 1 / 2 + r0, z0], [1 / 2 + r0, 1 / 2 + r0, z0],
    [1 / 2 - r2, 1 / 2 - r2, z2], [1 / 2 + r2, 1 / 2 - r2, z2], [1 / 2 - r2, 1 / 2 + r2, z2], [1 / 2 + r2, 1 / 2 + r2, z2]]⟩

theorem clamps (w f : K) (hw : 0 < w ∧ w < 1 / 2) (hf : 0 < f ∧ f < 1) :
    (1 - w - (1 - 2 * w) = w ∧ w + (1 - 2 * w) = 1 - w ∧ w + (1 - w) = 1) ∧ (max w 0 = w ∧ max (1 - w) 0 = 1 - w ∧ max f 0 = f ∧ max (1 - f) 0 = 1 - f ∧ max (1 : K) 0 = 1) ∧
    (min w 1 = w ∧ min (1 - w) 1 = 1 - w ∧ min f 1 = f ∧ min (1 - f) 1 = 1 - f ∧ min (0 : K) 1 = 0) := by
  refine ⟨⟨by ring, by ring, by ring⟩, ⟨?_, ?_, ?_, ?_, ?_⟩, ?_, ?_, ?_, ?_, ?_⟩
  all_goals first
    | (apply max_eq_left; linarith)
    | (apply min_eq_left; linarith)

theorem center_pos (x : K) : x + 1 / 2 = 1 / 2 + x := by ring

set_option maxHeartbeats 4000000 in
theorem close_z_min_eq (w f r : K) (hw : 0 < w ∧ w < 1 / 2) (hf : 0 < f ∧ f < 1) :
    closeValues cross3DCloseZMin w f r = blocks w (max (w - (1 - 2 * w)) 0) (min (1 - w + (1 - 2 * w)) 1) 0 f ++ [branch ((1 - 2 * w) * (1 / 2)) r r f ((1 + f) * (1 / 2)) 1] ∧
    closeValues cross3DLinearCloseZMin w f r = blocks w (max (w - (1 - 2 * w)) 0) (min (1 - w + (1 - 2 * w)) 1) 0 f ++ [branchLinear ((1 - 2 * w) * (1 / 2)) r f 1] := by
  have H := clamps w f hw hf
  unfold closeValues cross3DCloseZMin cross3DLinearCloseZMin
  simp only [shift, unshift, clampLow, clampHigh, List.map_cons, List.map_nil, List.zipWith_cons_cons, List.zipWith_nil_left, sub_zero, add_zero, zero_add, max_self, min_self, H,
    blocks, block, branch, branchLinear, List.cons_append, List.nil_append, center_pos, ← sub_eq_add_neg, and_self]

set_option maxHeartbeats 4000000 in
theorem close_z_max_eq (w f r : K) (hw : 0 < w ∧ w < 1 / 2) (hf : 0 < f ∧ f < 1) :
    closeValues cross3DCloseZMax w f r =
      blocks w (max (w - (1 - 2 * w)) 0) (min (1 - w + (1 - 2 * w)) 1) (1 - f) 1 ++ [branch r r ((1 - 2 * w) * (1 / 2)) 0 (1 - (1 + f) * (1 / 2)) (1 - f)] ∧
    closeValues cross3DLinearCloseZMax w f r = blocks w (max (w - (1 - 2 * w)) 0) (min (1 - w + (1 - 2 * w)) 1) (1 - f) 1 ++ [branchLinear r ((1 - 2 * w) * (1 / 2)) 0 (1 - f)] := by
  have H := clamps w f hw hf
  unfold closeValues cross3DCloseZMax cross3DLinearCloseZMax
  simp only [shift, unshift, clampLow, clampHigh, List.map_cons, List.map_nil, List.zipWith_cons_cons, List.zipWith_nil_left, sub_zero, add_zero, zero_add, max_self, min_self, H,
    blocks, block, branch, branchLinear, List.cons_append, List.nil_append, center_pos, ← sub_eq_add_neg, and_self]

/-- a rectangle on the side `x = v` -/
def Spec.rectX (v y0 y1 z0 z1 : K) : List (List K) := [[v, y0, z0], [v, y1, z0], [v, y0, z1], [v, y1, z1]]

/-- a rectangle on the side `y = v` -/
def Spec.rectY (v x0 x1 z0 z1 : K) : List (List K) := [[x0, v, z0], [x1, v, z0], [x0, v, z1], [x1, v, z1]]

/-- a rectangle on the side `z = v` -/
def Spec.rectZ (v x0 x1 y0 y1 : K) : List (List K) := [[x0, y0, v], [x1, y0, v], [x0, y1, v], [x1, y1, v]]

set_option maxHeartbeats 4000000 in
theorem blocks_closed (w z0 z1 : K) (hw : 0 < w ∧ w < 1 / 2) :
    (SideIs (blocks w 0 1 z0 z1) 0 0 [rectX 0 0 w z0 z1, rectX 0 (1 - w) 1 z0 z1, rectX 0 w (1 - w) z0 z1] ∧
    SideIs (blocks w 0 1 z0 z1) 0 1 [rectX 1 0 w z0 z1, rectX 1 (1 - w) 1 z0 z1, rectX 1 w (1 - w) z0 z1]) ∧
    (SideIs (blocks w 0 1 z0 z1) 1 0 [rectY 0 0 w z0 z1, rectY 0 (1 - w) 1 z0 z1, rectY 0 w (1 - w) z0 z1] ∧
    SideIs (blocks w 0 1 z0 z1) 1 1 [rectY 1 0 w z0 z1, rectY 1 (1 - w) 1 z0 z1, rectY 1 w (1 - w) z0 z1]) := by
  unfold blocks block rectX rectY
  refine ⟨⟨?_, ?_⟩, ?_, ?_⟩ <;> side [inside' hw.1 (hw.2.trans one_half_lt_one)]

set_option maxHeartbeats 4000000 in
theorem blocks_open (w lo hi z0 z1 : K) (hw : 0 < w ∧ w < 1 / 2) (hl : 0 < lo ∧ lo < 1) (hh : 0 < hi ∧ hi < 1) :
    (SideIs (blocks w lo hi z0 z1) 0 0 [rectX 0 0 w z0 z1, rectX 0 (1 - w) 1 z0 z1] ∧ SideIs (blocks w lo hi z0 z1) 0 1 [rectX 1 0 w z0 z1, rectX 1 (1 - w) 1 z0 z1]) ∧
    (SideIs (blocks w lo hi z0 z1) 1 0 [rectY 0 0 w z0 z1, rectY 0 (1 - w) 1 z0 z1] ∧ SideIs (blocks w lo hi z0 z1) 1 1 [rectY 1 0 w z0 z1, rectY 1 (1 - w) 1 z0 z1]) := by
  unfold blocks block rectX rectY
  refine ⟨⟨?_, ?_⟩, ?_, ?_⟩ <;> side [inside' hw.1 (hw.2.trans one_half_lt_one), inside' hl.1 hl.2, inside' hh.1 hh.2]

/-- the rectangles of the closed side -/
def Spec.closedSide (v w lo hi : K) : List (List (List K)) :=
  [rectZ v 0 w 0 w, rectZ v 0 w (1 - w) 1, rectZ v (1 - w) 1 0 w, rectZ v (1 - w) 1 (1 - w) 1, rectZ v w (1 - w) w (1 - w),
   rectZ v lo w w (1 - w), rectZ v w (1 - w) lo w, rectZ v (1 - w) hi w (1 - w), rectZ v w (1 - w) (1 - w) hi]

set_option maxHeartbeats 4000000 in
theorem blocks_z (w lo hi z : K) (hz : 0 < z ∧ z < 1) :
    (SideIs (blocks w lo hi 0 z) 2 0 (closedSide 0 w lo hi) ∧ SideIs (blocks w lo hi 0 z) 2 1 []) ∧
    (SideIs (blocks w lo hi (1 - z) 1) 2 0 [] ∧ SideIs (blocks w lo hi (1 - z) 1) 2 1 (closedSide 1 w lo hi)) := by
  unfold blocks block closedSide rectZ
  refine ⟨⟨?_, ?_⟩, ?_, ?_⟩ <;> side [inside' hz.1 hz.2]

theorem inside'' {x : K} (h : 0 < x ∧ x < 1 / 2) : (¬(1 / 2 - x = 1) ∧ ¬(1 / 2 + x = 1)) ∧ ¬(1 / 2 - x = 0) ∧ ¬(1 / 2 + x = 0) := by
  refine ⟨⟨fun e => ?_, fun e => ?_⟩, fun e => ?_, fun e => ?_⟩ <;> linarith [h.1, h.2]

set_option maxHeartbeats 4000000 in
theorem branch_sides (r s m z : K) (hr : 0 < r ∧ r < 1 / 2) (hs : 0 < s ∧ s < 1 / 2) (hm : 0 < m ∧ m < 1) (hz : 0 < z ∧ z < 1) :
    ((∀ v : K, v = 0 ∨ v = 1 → SideIs [branch s r r z m 1] 0 v [] ∧ SideIs [branch s r r z m 1] 1 v []) ∧
      SideIs [branch s r r z m 1] 2 0 [] ∧ SideIs [branch s r r z m 1] 2 1 [square 2 1 r]) ∧
    ((∀ v : K, v = 0 ∨ v = 1 → SideIs [branch r r s 0 m z] 0 v [] ∧ SideIs [branch r r s 0 m z] 1 v []) ∧
      SideIs [branch r r s 0 m z] 2 0 [square 2 0 r] ∧ SideIs [branch r r s 0 m z] 2 1 []) ∧
    ((∀ v : K, v = 0 ∨ v = 1 → SideIs [branchLinear s r z 1] 0 v [] ∧ SideIs [branchLinear s r z 1] 1 v []) ∧
      SideIs [branchLinear s r z 1] 2 0 [] ∧ SideIs [branchLinear s r z 1] 2 1 [square 2 1 r]) ∧
    ((∀ v : K, v = 0 ∨ v = 1 → SideIs [branchLinear r s 0 z] 0 v [] ∧ SideIs [branchLinear r s 0 z] 1 v []) ∧
      SideIs [branchLinear r s 0 z] 2 0 [square 2 0 r] ∧ SideIs [branchLinear r s 0 z] 2 1 []) := by
  simp only [square_z]
  unfold branch branchLinear
  refine ⟨⟨?_, ?_, ?_⟩, ⟨?_, ?_, ?_⟩, ⟨?_, ?_, ?_⟩, ?_, ?_, ?_⟩
  all_goals first
    | (rintro v (rfl | rfl) <;> constructor <;> side [inside'' hr, inside'' hs, inside' hm.1 hm.2, inside' hz.1 hz.2])
    | side [inside'' hr, inside'' hs, inside' hm.1 hm.2, inside' hz.1 hz.2]

/-- the faces of a closing tile on the sides it shares with other closing tiles; the part in the middle is missing if the boundary width is larger than one third -/
def Spec.borderX (v w z0 z1 : K) : List (List (List K)) := [rectX v 0 w z0 z1, rectX v (1 - w) 1 z0 z1] ++ if w ≤ 1 / 3 then [rectX v w (1 - w) z0 z1] else []

def Spec.borderY (v w z0 z1 : K) : List (List (List K)) := [rectY v 0 w z0 z1, rectY v (1 - w) 1 z0 z1] ++ if w ≤ 1 / 3 then [rectY v w (1 - w) z0 z1] else []

theorem blocks_border (w z0 z1 : K) (hw : 0 < w ∧ w < 1 / 2) :
    (SideIs (blocks w (max (w - (1 - 2 * w)) 0) (min (1 - w + (1 - 2 * w)) 1) z0 z1) 0 0 (borderX 0 w z0 z1) ∧
    SideIs (blocks w (max (w - (1 - 2 * w)) 0) (min (1 - w + (1 - 2 * w)) 1) z0 z1) 0 1 (borderX 1 w z0 z1)) ∧
    (SideIs (blocks w (max (w - (1 - 2 * w)) 0) (min (1 - w + (1 - 2 * w)) 1) z0 z1) 1 0 (borderY 0 w z0 z1) ∧
    SideIs (blocks w (max (w - (1 - 2 * w)) 0) (min (1 - w + (1 - 2 * w)) 1) z0 z1) 1 1 (borderY 1 w z0 z1)) := by
  by_cases h : w ≤ 1 / 3
  · rw [max_eq_right (show w - (1 - 2 * w) ≤ 0 by linarith), min_eq_right (show 1 ≤ 1 - w + (1 - 2 * w) by linarith)]
    simp only [borderX, borderY, if_pos h]
    exact blocks_closed w z0 z1 hw
  · push Not at h
    rw [max_eq_left (show 0 ≤ w - (1 - 2 * w) by linarith), min_eq_left (show 1 - w + (1 - 2 * w) ≤ 1 by linarith)]
    simp only [borderX, borderY, if_neg (not_le.2 h), List.append_nil]
    exact blocks_open w _ _ z0 z1 hw ⟨by linarith, by linarith⟩ ⟨by linarith, by linarith [hw.2]⟩

/-- What the six sides of a tile of `Cross3D` or `Cross3DLinear` look like. -/
def Sides (w f : K) (closure : Option String) (p : Mat K) (t : List (Patch K)) : Prop :=
  (closure = none ∧ (SideIs t 0 0 [square 0 0 (entry p 0 0)] ∧ SideIs t 0 1 [square 0 1 (entry p 1 0)]) ∧ (SideIs t 1 0 [square 1 0 (entry p 2 0)] ∧
    SideIs t 1 1 [square 1 1 (entry p 3 0)]) ∧ (SideIs t 2 0 [square 2 0 (entry p 4 0)] ∧ SideIs t 2 1 [square 2 1 (entry p 5 0)])) ∨
  (closure = some "z_min" ∧ (SideIs t 0 0 (borderX 0 w 0 f) ∧ SideIs t 0 1 (borderX 1 w 0 f)) ∧ (SideIs t 1 0 (borderY 0 w 0 f) ∧ SideIs t 1 1 (borderY 1 w 0 f)) ∧
    (SideIs t 2 0 (closedSide 0 w (max (w - (1 - 2 * w)) 0) (min (1 - w + (1 - 2 * w)) 1)) ∧ SideIs t 2 1 [square 2 1 (entry p 5 0)])) ∨
  (closure = some "z_max" ∧ (SideIs t 0 0 (borderX 0 w (1 - f) 1) ∧ SideIs t 0 1 (borderX 1 w (1 - f) 1)) ∧ (SideIs t 1 0 (borderY 0 w (1 - f) 1) ∧
    SideIs t 1 1 (borderY 1 w (1 - f) 1)) ∧ (SideIs t 2 0 [square 2 0 (entry p 4 0)] ∧
    SideIs t 2 1 (closedSide 1 w (max (w - (1 - 2 * w)) 0) (min (1 - w + (1 - 2 * w)) 1))))

theorem side_append_nil {t u : List (Patch K)} {axis : ℕ} {v : K} {l : List (List (List K))} (ht : SideIs t axis v l) (hu : SideIs u axis v []) :
    SideIs (t ++ u) axis v l := by
  have := side_append ht hu
  rwa [List.append_nil] at this

theorem sides_join {w f : K} {axis : ℕ} (ha : axis < 3) {c c' : Option String} (hn : Neighbours axis c c') {p q : Mat K} {t u : List (Patch K)} (ht : Sides w f c p t)
    (hu : Sides w f c' q u) (hpq : entry p (2 * axis + 1) 0 = entry q (2 * axis) 0) : Joins t u axis := by
  have hb : ∀ z0 z1 : K, (∀ g ∈ borderX 1 w z0 z1, ∃ g' ∈ borderX 0 w z0 z1, g'.map (fun x => x.set 0 1) = g) ∧
      (∀ g ∈ borderX 0 w z0 z1, ∃ g' ∈ borderX 1 w z0 z1, g'.map (fun x => x.set 0 0) = g) ∧
      (∀ g ∈ borderY 1 w z0 z1, ∃ g' ∈ borderY 0 w z0 z1, g'.map (fun x => x.set 1 1) = g) ∧
      (∀ g ∈ borderY 0 w z0 z1, ∃ g' ∈ borderY 1 w z0 z1, g'.map (fun x => x.set 1 0) = g) := by
    intro z0 z1
    simp only [borderX, borderY]
    by_cases h : w ≤ 1 / 3
    · simp only [if_pos h]
      refine ⟨?_, ?_, ?_, ?_⟩ <;> simp [rectX, rectY]
    · simp only [if_neg h]
      refine ⟨?_, ?_, ?_, ?_⟩ <;> simp [rectX, rectY]
  have hs : ∀ r : K, ((square 0 0 r).map (fun x => x.set 0 1) = square 0 1 r ∧ (square 0 1 r).map (fun x => x.set 0 0) = square 0 0 r) ∧
      ((square 1 0 r).map (fun x => x.set 1 1) = square 1 1 r ∧ (square 1 1 r).map (fun x => x.set 1 0) = square 1 0 r) ∧
      ((square 2 0 r).map (fun x => x.set 2 1) = square 2 1 r ∧ (square 2 1 r).map (fun x => x.set 2 0) = square 2 0 r) := by
    intro r
    simp [square_x, square_y, square_z]
  rcases ht with ⟨rfl, ⟨-, a0⟩, ⟨-, a1⟩, -, a2⟩ | ⟨rfl, ⟨-, a0⟩, ⟨-, a1⟩, -, a2⟩ | ⟨rfl, ⟨-, a0⟩, ⟨-, a1⟩, -, a2⟩ <;>
  rcases hu with ⟨rfl, ⟨b0, -⟩, ⟨b1, -⟩, b2, -⟩ | ⟨rfl, ⟨b0, -⟩, ⟨b1, -⟩, b2, -⟩ | ⟨rfl, ⟨b0, -⟩, ⟨b1, -⟩, b2, -⟩ <;>
  obtain rfl | rfl | rfl : axis = 0 ∨ axis = 1 ∨ axis = 2 := by omega
  all_goals first
    | (exfalso; simp [Neighbours] at hn; done)
    | skip
  all_goals simp only [Nat.mul_zero, Nat.mul_one, Nat.zero_add, Nat.reduceMul, Nat.reduceAdd] at hpq
  all_goals first
    | exact joins_of_sides a0 b0 (hb _ _).1 (hb _ _).2.1
    | exact joins_of_sides a1 b1 (hb _ _).2.2.1 (hb _ _).2.2.2
    | exact joins_of_sides a0 b0 (by simp [hpq, hs]) (by simp [hpq, hs])
    | exact joins_of_sides a1 b1 (by simp [hpq, hs]) (by simp [hpq, hs])
    | exact joins_of_sides a2 b2 (by simp [hpq, hs]) (by simp [hpq, hs])

/-- radii below the maximum -/
theorem cross3D_center_lt {x a b c d e f : K} (hx : 1 / 2 < x) (h : ∀ r ∈ [[a], [b], [c], [d], [e], [f]], ∀ y ∈ r, 0 < y ∧ y < min (1 / 2) (1 / 2 / x)) :
    (0 < a ∧ a < 1 / 2) ∧ (0 < b ∧ b < 1 / 2) ∧ (0 < c ∧ c < 1 / 2) ∧ (0 < d ∧ d < 1 / 2) ∧ (0 < e ∧ e < 1 / 2) ∧ (0 < f ∧ f < 1 / 2) ∧
    0 < cross3DCenter x [[a], [b], [c], [d], [e], [f]] ∧ cross3DCenter x [[a], [b], [c], [d], [e], [f]] < 1 / 2 := by
  have ha := h [a] (by simp) a (by simp)
  have hb := h [b] (by simp) b (by simp)
  have hc := h [c] (by simp) c (by simp)
  have hd := h [d] (by simp) d (by simp)
  have he := h [e] (by simp) e (by simp)
  have hf := h [f] (by simp) f (by simp)
  have ha' := max_radius hx ha.2
  have hb' := max_radius hx hb.2
  have hc' := max_radius hx hc.2
  have hd' := max_radius hx hd.2
  have he' := max_radius hx he.2
  have hf' := max_radius hx hf.2
  have hp : (0 : K) < x := by linarith
  have hce : cross3DCenter x [[a], [b], [c], [d], [e], [f]] = (a * x + b * x + c * x + d * x + e * x + f * x) / 6 := by
    simp [cross3DCenter, entry]; ring
  rw [hce]
  have pa := mul_pos ha.1 hp
  have pb := mul_pos hb.1 hp
  have pc := mul_pos hc.1 hp
  have pd := mul_pos hd.1 hp
  have pe := mul_pos he.1 hp
  have pf := mul_pos hf.1 hp
  exact ⟨⟨ha.1, ha'.1⟩, ⟨hb.1, hb'.1⟩, ⟨hc.1, hc'.1⟩, ⟨hd.1, hd'.1⟩, ⟨he.1, he'.1⟩, ⟨hf.1, hf'.1⟩, by linarith, by linarith⟩

/-- all radii are smaller than the largest admissible one -/
def Spec.RadiiBelow (expansion : K) (p : Mat K) : Prop := ∀ r ∈ p, ∀ y ∈ r, y < min (1 / 2) (1 / 2 / expansion)

theorem cross3D_create_sides (expansion bound fill : K) (closure : Option String) (p : Mat K) (s : Option (List (Mat K))) (T : Tile K) (hp : RadiiBelow expansion p)
    (h : createCross3D expansion bound fill closure (some p) s = some T) : Sides bound fill closure p T.splines := by
  simp only [createCross3D, Option.getD_some, Option.ite_none_right_eq_some, Bool.and_eq_true, decide_eq_true_eq] at h
  obtain ⟨⟨⟨⟨⟨h1, h2⟩, h3⟩, h4⟩, h5⟩, h⟩ := h
  obtain ⟨a, b, c, d, e, f, rfl⟩ := params_six h3
  rw [withinClosed_iff] at h4
  obtain ⟨ha, hb, hc, hd, he, hf, hce⟩ := cross3D_center_lt h1 fun r hr y hy => ⟨(h4 r hr y hy).1, hp r hr y hy⟩
  cases closure with
  | none =>
    simp only [Option.some.injEq] at h
    subst h
    exact Or.inl ⟨rfl, cross3D_sides _ _ _ _ _ _ _ _ hce ⟨by linarith, by linarith⟩ ha hb hc hd he hf⟩
  | some cl =>
    simp only [cross3DClosing, Option.ite_none_right_eq_some, Bool.and_eq_true, decide_eq_true_eq] at h
    obtain ⟨⟨⟨_, g1, g2⟩, g3, g4⟩, h⟩ := h
    cases ht : cross3DCloseBranch cl (closeValues cross3DCloseZMin bound fill) (closeValues cross3DCloseZMax bound fill) [[a], [b], [c], [d], [e], [f]] with
    | none => simp [ht] at h
    | some t =>
      simp only [ht, Option.some.injEq] at h
      subst h
      have B := blocks_border bound 0 fill ⟨g1, g2⟩
      have B' := blocks_border bound (1 - fill) 1 ⟨g1, g2⟩
      have Z := blocks_z bound (max (bound - (1 - 2 * bound)) 0) (min (1 - bound + (1 - 2 * bound)) 1) fill ⟨g3, g4⟩
      simp only [cross3DCloseBranch] at ht
      split_ifs at ht with e1 e2 <;> rw [Option.some.injEq] at ht <;> subst ht
      · have R := (branch_sides f ((1 - 2 * bound) * (1 / 2)) ((1 + fill) * (1 / 2)) fill hf ⟨by linarith, by linarith⟩ ⟨by linarith, by linarith⟩ ⟨g3, g4⟩).1
        refine Or.inr (Or.inl ⟨by rw [e1], ?_⟩)
        simp only [assemble, (close_z_min_eq bound fill _ ⟨g1, g2⟩ ⟨g3, g4⟩).1]
        exact ⟨⟨side_append_nil B.1.1 (R.1 0 (Or.inl rfl)).1, side_append_nil B.1.2 (R.1 1 (Or.inr rfl)).1⟩,
          ⟨side_append_nil B.2.1 (R.1 0 (Or.inl rfl)).2, side_append_nil B.2.2 (R.1 1 (Or.inr rfl)).2⟩, side_append_nil Z.1.1 R.2.1, side_append Z.1.2 R.2.2⟩
      · have R := (branch_sides e ((1 - 2 * bound) * (1 / 2)) (1 - (1 + fill) * (1 / 2)) (1 - fill) he ⟨by linarith, by linarith⟩ ⟨by linarith, by linarith⟩
          ⟨by linarith, by linarith⟩).2.1
        refine Or.inr (Or.inr ⟨by rw [e2], ?_⟩)
        simp only [assemble, (close_z_max_eq bound fill _ ⟨g1, g2⟩ ⟨g3, g4⟩).1]
        exact ⟨⟨side_append_nil B'.1.1 (R.1 0 (Or.inl rfl)).1, side_append_nil B'.1.2 (R.1 1 (Or.inr rfl)).1⟩,
          ⟨side_append_nil B'.2.1 (R.1 0 (Or.inl rfl)).2, side_append_nil B'.2.2 (R.1 1 (Or.inr rfl)).2⟩, side_append Z.2.1 R.2.1, side_append_nil Z.2.2 R.2.2⟩

theorem cross3DLinear_create_sides (expansion bound fill : K) (closure : Option String) (p : Mat K) (s : Option (List (Mat K))) (T : Tile K) (hp : RadiiBelow expansion p)
    (h : createCross3DLinear expansion bound fill closure (some p) s = some T) : Sides bound fill closure p T.splines := by
  simp only [createCross3DLinear, Option.getD_some, Option.ite_none_right_eq_some, Bool.and_eq_true, decide_eq_true_eq] at h
  obtain ⟨⟨⟨⟨⟨h1, h2⟩, h3⟩, h4⟩, h5⟩, h⟩ := h
  obtain ⟨a, b, c, d, e, f, rfl⟩ := params_six h3
  rw [withinClosed_iff] at h4
  obtain ⟨ha, hb, hc, hd, he, hf, hce⟩ := cross3D_center_lt h1 fun r hr y hy => ⟨(h4 r hr y hy).1, hp r hr y hy⟩
  cases closure with
  | none =>
    simp only [Option.some.injEq] at h
    subst h
    exact Or.inl ⟨rfl, cross3DLinear_sides _ _ _ _ _ _ _ hce ha hb hc hd he hf⟩
  | some cl =>
    simp only [cross3DLinearClosing, Option.ite_none_right_eq_some, Bool.and_eq_true, decide_eq_true_eq] at h
    obtain ⟨⟨⟨_, g1, g2⟩, g3, g4⟩, h⟩ := h
    cases ht : cross3DCloseBranch cl (closeValues cross3DLinearCloseZMin bound fill) (closeValues cross3DLinearCloseZMax bound fill) [[a], [b], [c], [d], [e], [f]] with
    | none => simp [ht] at h
    | some t =>
      simp only [ht, Option.some.injEq] at h
      subst h
      have B := blocks_border bound 0 fill ⟨g1, g2⟩
      have B' := blocks_border bound (1 - fill) 1 ⟨g1, g2⟩
      have Z := blocks_z bound (max (bound - (1 - 2 * bound)) 0) (min (1 - bound + (1 - 2 * bound)) 1) fill ⟨g3, g4⟩
      simp only [cross3DCloseBranch] at ht
      split_ifs at ht with e1 e2 <;> rw [Option.some.injEq] at ht <;> subst ht
      · have R := (branch_sides f ((1 - 2 * bound) * (1 / 2)) ((1 + fill) * (1 / 2)) fill hf ⟨by linarith, by linarith⟩ ⟨by linarith, by linarith⟩ ⟨g3, g4⟩).2.2.1
        refine Or.inr (Or.inl ⟨by rw [e1], ?_⟩)
        simp only [assemble, (close_z_min_eq bound fill _ ⟨g1, g2⟩ ⟨g3, g4⟩).2]
        exact ⟨⟨side_append_nil B.1.1 (R.1 0 (Or.inl rfl)).1, side_append_nil B.1.2 (R.1 1 (Or.inr rfl)).1⟩,
          ⟨side_append_nil B.2.1 (R.1 0 (Or.inl rfl)).2, side_append_nil B.2.2 (R.1 1 (Or.inr rfl)).2⟩, side_append_nil Z.1.1 R.2.1, side_append Z.1.2 R.2.2⟩
      · have R := (branch_sides e ((1 - 2 * bound) * (1 / 2)) (1 - (1 + fill) * (1 / 2)) (1 - fill) he ⟨by linarith, by linarith⟩ ⟨by linarith, by linarith⟩
          ⟨by linarith, by linarith⟩).2.2.2
        refine Or.inr (Or.inr ⟨by rw [e2], ?_⟩)
        simp only [assemble, (close_z_max_eq bound fill _ ⟨g1, g2⟩ ⟨g3, g4⟩).2]
        exact ⟨⟨side_append_nil B'.1.1 (R.1 0 (Or.inl rfl)).1, side_append_nil B'.1.2 (R.1 1 (Or.inr rfl)).1⟩,
          ⟨side_append_nil B'.2.1 (R.1 0 (Or.inl rfl)).2, side_append_nil B'.2.2 (R.1 1 (Or.inr rfl)).2⟩, side_append Z.2.1 R.2.1, side_append_nil Z.2.2 R.2.2⟩

/-- Neighbouring tiles of `Cross3D`, ordinary or closing, meet if their radii on the common side agree; all radii must be smaller than the largest accepted one. -/
theorem cross3D_joins_partial (expansion bound fill : K) (axis : ℕ) (ha : axis < 3) (c c' : Option String) (hn : Neighbours axis c c') (p q : Mat K)
    (s s' : Option (List (Mat K))) (T U : Tile K) (hT : createCross3D expansion bound fill c (some p) s = some T)
    (hU : createCross3D expansion bound fill c' (some q) s' = some U) (hp : RadiiBelow expansion p) (hq : RadiiBelow expansion q)
    (hpq : entry p (2 * axis + 1) 0 = entry q (2 * axis) 0) : Joins T.splines U.splines axis :=
  sides_join ha hn (cross3D_create_sides _ _ _ _ _ _ _ hp hT) (cross3D_create_sides _ _ _ _ _ _ _ hq hU) hpq

/-- Neighbouring tiles of `Cross3DLinear`, ordinary or closing, meet if their radii on the common side agree; all radii must be smaller than the largest accepted one. -/
theorem cross3DLinear_joins_partial (expansion bound fill : K) (axis : ℕ) (ha : axis < 3) (c c' : Option String) (hn : Neighbours axis c c') (p q : Mat K)
    (s s' : Option (List (Mat K))) (T U : Tile K) (hT : createCross3DLinear expansion bound fill c (some p) s = some T)
    (hU : createCross3DLinear expansion bound fill c' (some q) s' = some U) (hp : RadiiBelow expansion p) (hq : RadiiBelow expansion q)
    (hpq : entry p (2 * axis + 1) 0 = entry q (2 * axis) 0) : Joins T.splines U.splines axis :=
  sides_join ha hn (cross3DLinear_create_sides _ _ _ _ _ _ _ hp hT) (cross3DLinear_create_sides _ _ _ _ _ _ _ hq hU) hpq

example : (createCross3D (1 : ℚ) (1 / 10) (1 / 3) none (some [[1/4], [1/5], [1/6], [1/3], [1/8], [1/7]]) none).isSome = true ∧
    (createCross3D (1 : ℚ) (1 / 10) (1 / 3) (some "z_max") (some [[1/5], [1/4], [1/6], [1/3], [1/7], [2/5]]) none).isSome = true ∧ Neighbours 2 none (some "z_max") ∧
    (∀ x ∈ [1/4, 1/5, 1/6, 1/3, 1/8, 1/7, (2/5 : ℚ)], x < min (1 / 2) (1 / 2 / 1)) := by
  refine ⟨by decide +kernel, by decide +kernel, ?_, by norm_num⟩
  left
  simp

end

/-- The largest accepted radius everywhere: the central block fills the cube and the branches collapse onto its sides. A neighbour that is accepted too and has the same
radius on the common side has nothing there that meets the collapsed branches. -/
theorem cross3D_joins_violates : ∃ (p q : Mat ℚ) (T U : Tile ℚ), createCross3D 1 (1 / 10) (1 / 3) none (some p) none = some T ∧
    createCross3D 1 (1 / 10) (1 / 3) none (some q) none = some U ∧ entry p 1 0 = entry q 0 0 ∧ ¬ Joins T.splines U.splines 0 := by
  have dec : ∀ (f : List (List ℚ)) (a : ℕ) (v : ℚ), Decidable (OnPlane f a v) := fun f a v => inferInstanceAs (Decidable (∀ x ∈ f, x.getD a 0 = v))
  refine ⟨constant 6 1 (1 / 2), [[1/2], [1/2], [1/5], [1/2], [1/2], [1/2]], ⟨cross3DTile 1 (constant 6 1 (1 / 2)), none⟩,
    ⟨cross3DTile 1 [[1/2], [1/2], [1/5], [1/2], [1/2], [1/2]], none⟩, ?_, ?_, by decide +kernel, ?_⟩
  · rw [createCross3D, if_pos (by decide +kernel)]; rfl
  · rw [createCross3D, if_pos (by decide +kernel)]; rfl
  rintro ⟨h, -⟩
  obtain ⟨g, hg, hg0, e⟩ := h [[1, 0, 0], [1, 0, 0], [1, 0, 0], [1, 0, 1], [1, 0, 1], [1, 0, 1]] (by decide +kernel) (by simp [OnPlane])
  revert e
  revert hg0
  revert hg
  revert g
  show ∀ g ∈ faces (cross3DTile 1 [[1/2], [1/2], [1/5], [1/2], [1/2], [1/2]]), (∀ x ∈ g, x.getD 0 0 = (0 : ℚ)) → ¬ g.map (fun x => x.set 0 1) = _
  decide +kernel

end Splinepy.Tiles
