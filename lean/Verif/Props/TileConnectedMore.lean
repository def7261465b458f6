import Verif.Props.TileConnected
import Verif.Props.TileInverse
import Verif.Props.TileJoinsClosing3D
import Verif.Lemma.TileCodesMore

/-!
C110, continued: `Cross2D`, `DoubleLattice`, `HollowOctagon`, `Snappy`, `Chi`, `Cross3D`, `Cross3DLinear`, `CubeVoid`, `EllipsVoid` are connected (the closing tiles of `Cross3D` and
`Cross3DLinear` only for widths of the boundary up to one third); `HollowCube` never is.
-/

namespace Splinepy.Tiles

open Spec

set_option maxRecDepth 100000 in
theorem moreTrees_span : ∀ e ∈ moreTrees, spans e.1 [0] e.2 = true := by decide +kernel

theorem connected_code {K : Type} [Zero K] (k : ℕ) (vals : List K) (hk : k < moreTrees.length := by decide) : Connected (decode (look vals) (moreTrees[k]).1) :=
  connected_decode _ (connected_of_spans _ (moreTrees_span _ (List.getElem_mem hk)))

section
variable {K : Type} [Field K] [LinearOrder K] [IsStrictOrderedRing K]

/-- `Cross2D` and its closing tiles. -/
theorem cross2D_connected (expansion bound fill : K) (closure : Option String) (p : Option (Mat K)) (s : Option (List (Mat K))) (T : Tile K)
    (h : createCross2D expansion bound fill closure p s = some T) : Connected T.splines := by
  simp only [createCross2D, Option.ite_none_right_eq_some] at h
  replace h := h.2
  cases closure with
  | none =>
    simp only [Option.some.injEq] at h
    subst h
    simp only [assemble, cross2DTile, cross2D_code]
    exact connected_code 0 _
  | some cl =>
    simp only [cross2DClosing, Option.ite_none_right_eq_some] at h
    replace h := h.2
    generalize p.getD (constant 4 1 (1 / 5)) = p at h
    cases ht : cross2DCloseTile cl bound fill p with
    | none => simp [ht] at h
    | some t =>
      simp only [ht, Option.some.injEq] at h
      subst h
      simp only [cross2DCloseTile, cross2DCloseBranch] at ht
      split_ifs at ht with e1 e2 e3 e4 <;> rw [Option.some.injEq] at ht <;> subst ht <;> simp only [assemble]
      · rw [cross2DCloseXMin_code]; exact connected_code 1 _
      · rw [cross2DCloseXMax_code]; exact connected_code 2 _
      · rw [cross2DCloseYMin_code]; exact connected_code 3 _
      · rw [cross2DCloseYMax_code]; exact connected_code 4 _

example : (createCross2D 1 (1 / 10) (1 / 4) (some "y_max") (some [[1 / 5], [1 / 4], [3 / 10], [1 / 3]]) none : Option (Tile ℚ)).isSome := by decide +kernel

/-- `DoubleLattice`. -/
theorem double_lattice_connected (sqrt2 contact : K) (closure : Option String) (p : Option (Mat K)) (s : Option (List (Mat K))) (T : Tile K)
    (h : createDoubleLattice sqrt2 contact closure p s = some T) : Connected T.splines := by
  simp only [createDoubleLattice, Option.ite_none_right_eq_some, Option.some.injEq] at h
  replace h := h.2
  subst h
  simp only [assemble, doubleLatticeTile, doubleLattice_code]
  exact connected_code 5 _

example : (createDoubleLattice (141 / 100) (1 / 2) none (some [[1 / 10, 1 / 20]]) none : Option (Tile ℚ)).isSome := by decide +kernel

/-- `HollowOctagon` and its closing tiles. -/
theorem hollow_octagon_connected (contact : K) (closure : Option String) (p : Option (Mat K)) (s : Option (List (Mat K))) (T : Tile K)
    (h : createHollowOctagon contact closure p s = some T) : Connected T.splines := by
  simp only [createHollowOctagon, Option.ite_none_right_eq_some] at h
  replace h := h.2
  cases closure with
  | none =>
    simp only [Option.some.injEq] at h
    subst h
    simp only [hollowOctagonTile, hollowOctagon_code]
    exact connected_code 6 _
  | some cl =>
    simp only [Option.map_eq_some_iff, hollowOctagonClosing, Option.ite_none_right_eq_some] at h
    obtain ⟨t, ⟨-, h⟩, rfl⟩ := h
    split_ifs at h <;> rw [Option.some.injEq] at h <;> subst h
    · simp only [hollowOctagonCloseXMin_code]; exact connected_code 7 _
    · simp only [hollowOctagonCloseXMax_code]; exact connected_code 8 _
    · simp only [hollowOctagonCloseYMin_code]; exact connected_code 9 _
    · simp only [hollowOctagonCloseYMax_code]; exact connected_code 10 _

example : (createHollowOctagon (1 / 5) (some "x_min") (some [[1 / 4]]) none : Option (Tile ℚ)).isSome := by decide +kernel

/-- `Snappy`. -/
theorem snappy_connected (contact a b c r : K) (closure : Option String) (p : Option (Mat K)) (s : Option (List (Mat K))) (T : Tile K)
    (h : createSnappy contact a b c r closure p s = some T) : Connected T.splines := by
  simp only [createSnappy, Option.ite_none_right_eq_some] at h
  replace h := h.2
  cases closure with
  | none =>
    simp only [Option.some.injEq] at h
    subst h
    simp only [snappy_code]
    exact connected_code 12 _
  | some cl => simp [snappyClosing] at h

example : (createSnappy (1 / 10 : ℚ) (1 / 10) (1 / 5) (3 / 10) (1 / 10) none none none).isSome = true := by decide +kernel

/-- the tree of common faces of `Cross3D` -/
theorem cross3D_span : spans cross3DCode [0] [(1, 0), (2, 0), (3, 0), (4, 0), (5, 0), (6, 0)] = true := by decide +kernel

/-- a block of numbers -/
def blockCode (x0 x1 y0 y1 z0 z1 : ℕ) : Patch ℕ := ⟨[1, 1, 1], [[x0, y0, z0], [x1, y0, z0], [x0, y1, z0], [x1, y1, z0], [x0, y0, z1], [x1, y0, z1], [x0, y1, z1], [x1, y1, z1]]⟩

/-- the blocks of a closing tile which fill the side, as numbers into `[0, 1, w, 1 - w, z0, z1, …]` -/
def blocksCode : List (Patch ℕ) :=
  [blockCode 0 2 0 2 4 5, blockCode 0 2 3 1 4 5, blockCode 3 1 0 2 4 5, blockCode 3 1 3 1 4 5, blockCode 2 3 2 3 4 5, blockCode 0 2 2 3 4 5, blockCode 2 3 0 2 4 5, blockCode 3 1 2 3 4 5,
   blockCode 2 3 3 1 4 5]

/-- three layers of numbers -/
def branchCode (l : List (ℕ × ℕ × ℕ)) : List (List ℕ) := l.flatMap fun e => [[e.1, e.1, e.2.2], [e.2.1, e.1, e.2.2], [e.1, e.2.1, e.2.2], [e.2.1, e.2.1, e.2.2]]

theorem closing_span :
    (∀ t ∈ [blocksCode ++ [⟨[1, 1, 2], branchCode [(2, 3, 5), (6, 7, 8), (6, 7, 9)]⟩], blocksCode ++ [⟨[1, 1, 1], branchCode [(2, 3, 5), (6, 7, 9)]⟩],
      blocksCode ++ [⟨[1, 1, 2], branchCode [(6, 7, 9), (6, 7, 8), (2, 3, 4)]⟩], blocksCode ++ [⟨[1, 1, 1], branchCode [(6, 7, 9), (2, 3, 4)]⟩]],
      spans t [0] [(5, 0), (1, 5), (6, 0), (2, 6), (7, 2), (3, 7), (8, 3), (4, 5), (9, 4)] = true) := by decide +kernel

theorem closing_connected (w z0 z1 r zm ze : K) :
    Connected (blocks w 0 1 z0 z1 ++ [branch ((1 - 2 * w) * (1 / 2)) r r z1 zm ze]) ∧ Connected (blocks w 0 1 z0 z1 ++ [branchLinear ((1 - 2 * w) * (1 / 2)) r z1 ze]) ∧
    Connected (blocks w 0 1 z0 z1 ++ [branch r r ((1 - 2 * w) * (1 / 2)) ze zm z0]) ∧ Connected (blocks w 0 1 z0 z1 ++ [branchLinear r ((1 - 2 * w) * (1 / 2)) ze z0]) := by
  have e1 : 1 / 2 - (1 - 2 * w) * (1 / 2) = w := by ring
  have e2 : 1 / 2 + (1 - 2 * w) * (1 / 2) = 1 - w := by ring
  have key := fun t ht => connected_decode (look [0, 1, w, 1 - w, z0, z1, 1 / 2 - r, 1 / 2 + r, zm, ze]) (connected_of_spans _ (closing_span t ht))
  simp only [branch, branchLinear, e1, e2]
  exact ⟨key _ (.head _), key _ (.tail _ (.head _)), key _ (.tail _ (.tail _ (.head _))), key _ (.tail _ (.tail _ (.tail _ (.head _))))⟩

/-- `Cross3D`: ordinary tiles, and closing tiles with a width of the boundary up to one third. -/
theorem cross3D_connected_partial (expansion bound fill : K) (closure : Option String) (hb : closure ≠ none → bound ≤ 1 / 3) (p : Option (Mat K)) (s : Option (List (Mat K)))
    (T : Tile K) (h : createCross3D expansion bound fill closure p s = some T) : Connected T.splines := by
  simp only [createCross3D, Option.ite_none_right_eq_some] at h
  replace h := h.2
  generalize p.getD (constant 6 1 (1 / 5)) = p at h
  cases closure with
  | none =>
    simp only [Option.some.injEq] at h
    subst h
    simp only [assemble, cross3DTile]
    rw [cross3D_code 0 0 _ _ _ _ _ _ _ _ 0 0 0 0 0 0]
    exact connected_decode _ (connected_of_spans _ cross3D_span)
  | some closure =>
    replace hb := hb (by simp)
    simp only [cross3DClosing, Option.ite_none_right_eq_some, Bool.and_eq_true, decide_eq_true_eq] at h
    obtain ⟨⟨⟨_, g1, g2⟩, g3, g4⟩, h⟩ := h
    have lo : max (bound - (1 - 2 * bound)) 0 = 0 := max_eq_right (by linarith)
    have hi : min (1 - bound + (1 - 2 * bound)) 1 = 1 := min_eq_right (by linarith)
    cases ht : cross3DCloseBranch closure (closeValues cross3DCloseZMin bound fill) (closeValues cross3DCloseZMax bound fill) p with
    | none => simp [ht] at h
    | some t =>
      simp only [ht, Option.some.injEq] at h
      subst h
      simp only [cross3DCloseBranch] at ht
      split_ifs at ht with e1 e2 <;> rw [Option.some.injEq] at ht <;> subst ht
      · simp only [assemble, (close_z_min_eq bound fill _ ⟨g1, g2⟩ ⟨g3, g4⟩).1, lo, hi]
        exact (closing_connected _ _ _ _ _ _).1
      · simp only [assemble, (close_z_max_eq bound fill _ ⟨g1, g2⟩ ⟨g3, g4⟩).1, lo, hi]
        exact (closing_connected _ _ _ _ _ _).2.2.1

example : (createCross3D 1 (1 / 10) (1 / 4) (some "z_min") (some [[1 / 5], [1 / 4], [3 / 10], [1 / 3], [1 / 5], [1 / 6]]) none : Option (Tile ℚ)).isSome := by decide +kernel

/-- The same for `Cross3DLinear`. -/
theorem cross3DLinear_connected_partial (expansion bound fill : K) (closure : Option String) (hb : closure ≠ none → bound ≤ 1 / 3) (p : Option (Mat K)) (s : Option (List (Mat K)))
    (T : Tile K) (h : createCross3DLinear expansion bound fill closure p s = some T) : Connected T.splines := by
  simp only [createCross3DLinear, Option.ite_none_right_eq_some] at h
  replace h := h.2
  generalize p.getD (constant 6 1 (1 / 5)) = p at h
  cases closure with
  | none =>
    simp only [Option.some.injEq] at h
    subst h
    simp only [assemble, cross3DLinearTile, cross3DLinear_code]
    exact connected_code 11 _
  | some closure =>
    replace hb := hb (by simp)
    simp only [cross3DLinearClosing, Option.ite_none_right_eq_some, Bool.and_eq_true, decide_eq_true_eq] at h
    obtain ⟨⟨⟨_, g1, g2⟩, g3, g4⟩, h⟩ := h
    have lo : max (bound - (1 - 2 * bound)) 0 = 0 := max_eq_right (by linarith)
    have hi : min (1 - bound + (1 - 2 * bound)) 1 = 1 := min_eq_right (by linarith)
    cases ht : cross3DCloseBranch closure (closeValues cross3DLinearCloseZMin bound fill) (closeValues cross3DLinearCloseZMax bound fill) p with
    | none => simp [ht] at h
    | some t =>
      simp only [ht, Option.some.injEq] at h
      subst h
      simp only [cross3DCloseBranch] at ht
      split_ifs at ht with e1 e2 <;> rw [Option.some.injEq] at ht <;> subst ht
      · simp only [assemble, (close_z_min_eq bound fill _ ⟨g1, g2⟩ ⟨g3, g4⟩).2, lo, hi]
        exact (closing_connected _ _ _ _ 0 _).2.1
      · simp only [assemble, (close_z_max_eq bound fill _ ⟨g1, g2⟩ ⟨g3, g4⟩).2, lo, hi]
        exact (closing_connected _ _ _ _ 0 _).2.2.2

example : (createCross3DLinear 1 (1 / 10) (1 / 4) (some "z_max") (some [[1 / 5], [1 / 4], [3 / 10], [1 / 3], [1 / 5], [1 / 6]]) none : Option (Tile ℚ)).isSome := by decide +kernel

/-! ### Tiles which fall apart -/

/-- apply a function to all control points -/
def mapPatch {L : Type} (φ : List K → List L) (P : Patch K) : Patch L := ⟨P.degrees, P.cps.map φ⟩

omit [Field K] [LinearOrder K] [IsStrictOrderedRing K] in
/-- a common face stays a common face when the same function is applied to all control points -/
theorem shares_map {L : Type} {φ : List K → List L} (hφ : φ [] = []) {P Q : Patch K} (h : Shares P Q) : Shares (mapPatch φ P) (mapPatch φ Q) := by
  have hface : ∀ (P : Patch K) (d : ℕ) (l : Bool), face (mapPatch φ P) d l = (face P d l).map φ := by
    intro P d l
    simp only [face, mapPatch, List.map_map]
    refine List.map_congr_left fun i _ => ?_
    simp only [Function.comp]
    rw [List.getD_eq_getElem?_getD, List.getD_eq_getElem?_getD, List.getElem?_map]
    cases P.cps[i]? <;> simp [hφ]
  have hsides : ∀ P : Patch K, sides (mapPatch φ P) = (sides P).map fun f => (f.1, f.2.map φ) := by
    intro P
    simp only [sides, List.map_flatMap, List.map_cons, List.map_nil, hface]
    rfl
  have hread : ∀ f : List ℕ × List (List K), readings (f.1, f.2.map φ) = (readings f).map fun g => (g.1, g.2.map φ) := by
    intro f
    obtain ⟨s, f⟩ := f
    have hd : φ (default : List K) = (default : List L) := hφ
    match s with
    | [] => simp [readings]
    | [a] => simp [readings, turn_map _ hd]
    | [a, b] => simp [readings, turn_map _ hd]
    | _ :: _ :: _ :: _ => simp [readings]
  obtain ⟨f, hf, g, hg, hr⟩ := h
  refine ⟨(f.1, f.2.map φ), ?_, (g.1, g.2.map φ), ?_, ?_⟩
  · rw [hsides]; exact List.mem_map.2 ⟨f, hf, rfl⟩
  · rw [hsides]; exact List.mem_map.2 ⟨g, hg, rfl⟩
  · rw [hread]; exact List.mem_map.2 ⟨g, hr, rfl⟩

/-- zero, one, the lower and the upper half -/
def part (x : K) : ℕ := if x = 0 then 0 else if x = 1 then 1 else if x < 1 / 2 then 2 else 3

theorem part_low {x : K} (h : 0 < x ∧ x < 1 / 2) : part x = 2 ∧ part (1 - x) = 3 := by
  refine ⟨?_, ?_⟩
  · rw [part, if_neg h.1.ne', if_neg (by linarith), if_pos h.2]
  · rw [part, if_neg (by linarith), if_neg (by linarith), if_neg (by linarith)]

set_option maxRecDepth 100000 in
/-- no two patches of `HollowCube` have a face in common, even if only the position in the lower or upper half of the coordinates is looked at -/
theorem hollow_cube_parts : below 16 hollowCubeCode = true ∧ ∀ i < 12, ∀ j < 12,
    adjacentB (decode (fun n => ([0, 1, 3, 2, 3, 2, 2, 3, 2, 3, 2, 3, 3, 2, 3, 2] : List ℕ).getD n 0) hollowCubeCode) i j = true → j = i := by
  refine ⟨by decide +kernel, by decide +kernel⟩

/-- `HollowCube`: no two patches of the tile have a face in common, for all accepted parameters; in particular the tile is not connected. (Two neighbouring patches have three of the
four corners of a face in common, the fourth ones are the corners of the openings of two different sides of the cube.) -/
theorem hollow_cube_connected_violates (closure : Option String) (p : Option (Mat K)) (s : Option (List (Mat K))) (T : Tile K) (h : createHollowCube closure p s = some T) :
    (∀ i j, Adjacent T.splines i j → j = i) ∧ ¬ Connected T.splines := by
  simp only [createHollowCube, Option.ite_none_right_eq_some, Bool.and_eq_true, Option.some.injEq] at h
  obtain ⟨⟨⟨h1, h2⟩, -⟩, rfl⟩ := h
  generalize p.getD (constant 7 1 (1 / 5)) = p at h1 h2
  obtain ⟨a, b, c, d, e, f, g, rfl⟩ := params_seven h1
  rw [within_iff] at h2
  have ha := part_low (h2 [a] (by simp) a (by simp))
  have hb := part_low (h2 [b] (by simp) b (by simp))
  have hc := part_low (h2 [c] (by simp) c (by simp))
  have hd := part_low (h2 [d] (by simp) d (by simp))
  have he := part_low (h2 [e] (by simp) e (by simp))
  have hf := part_low (h2 [f] (by simp) f (by simp))
  have hg := part_low (h2 [g] (by simp) g (by simp))
  simp only [assemble, hollowCubeTile, entry, List.getD_cons_zero, List.getD_cons_succ, hollowCube_code]
  have table : ∀ n < 16, part (look (hollowCubeTable a b c d e f g) n) = ([0, 1, 3, 2, 3, 2, 2, 3, 2, 3, 2, 3, 3, 2, 3, 2] : List ℕ).getD n 0 := by
    intro n hn
    have p0 : part (0 : K) = 0 := by simp [part]
    have p1 : part (1 : K) = 1 := by simp [part]
    interval_cases n <;> simp only [look, hollowCubeTable, List.getD_cons_zero, List.getD_cons_succ, p0, p1, ha, hb, hc, hd, he, hf, hg]
  have dec := decode_congr table hollow_cube_parts.1
  have len : (decode (look (hollowCubeTable a b c d e f g)) hollowCubeCode).length = 12 := by rw [decode, List.length_map]; decide +kernel
  have adj : ∀ i j, Adjacent (decode (look (hollowCubeTable a b c d e f g)) hollowCubeCode) i j → j = i := by
    intro i j hij
    obtain ⟨P, Q, hP, hQ, hs⟩ := hij
    have hi : i < 12 := by rw [← len]; exact (List.getElem?_eq_some_iff.1 hP).1
    have hj : j < 12 := by rw [← len]; exact (List.getElem?_eq_some_iff.1 hQ).1
    refine hollow_cube_parts.2 i hi j hj ?_
    rw [← dec]
    simp only [decode, List.getElem?_map, Option.map_eq_some_iff] at hP hQ
    obtain ⟨P, hP, rfl⟩ := hP
    obtain ⟨Q, hQ, rfl⟩ := hQ
    have conv : ∀ P : Patch ℕ, mapPatch (List.map part) (decodePatch (look (hollowCubeTable a b c d e f g)) P) =
        decodePatch (fun n => part (look (hollowCubeTable a b c d e f g) n)) P := by
      intro P; simp [mapPatch, decodePatch, Function.comp_def]
    have m : ∀ P Q : Patch ℕ, Shares (decodePatch (look (hollowCubeTable a b c d e f g)) P) (decodePatch (look (hollowCubeTable a b c d e f g)) Q) →
        Shares (decodePatch (fun n => part (look (hollowCubeTable a b c d e f g) n)) P) (decodePatch (fun n => part (look (hollowCubeTable a b c d e f g) n)) Q) := by
      intro P Q h
      have := shares_map (φ := List.map part) rfl h
      rwa [conv, conv] at this
    simp only [adjacentB, decode, List.getElem?_map, hP, hQ, Option.map_some]
    simpa using hs.imp (m _ _) (m _ _)
  exact ⟨adj, not_connected 0 (by omega) 1 (by omega) (by omega) fun j hj => adj 0 j hj⟩

example : (createHollowCube none (some [[1 / 5], [1 / 4], [3 / 10], [1 / 3], [1 / 5], [1 / 6], [1 / 7]]) none : Option (Tile ℚ)).isSome := by decide +kernel

/-- the first two coordinates; zero, `w` and other values are distinguished -/
def plan (w : K) (r : List K) : List ℕ := (r.take 2).map fun x => if x = 0 then 0 else if x = w then 1 else 2

/-- the blocks of a closing tile with a gap, in the plan -/
def blocksPlan : List (Patch ℕ) := ([(0, 1, 0, 1), (0, 1, 2, 2), (2, 2, 0, 1), (2, 2, 2, 2), (1, 2, 1, 2), (2, 1, 1, 2), (1, 2, 2, 1), (2, 2, 1, 2), (1, 2, 2, 2)] : List (ℕ × ℕ × ℕ × ℕ)).map
  fun e => ⟨[1, 1, 1], [[e.1, e.2.2.1], [e.2.1, e.2.2.1], [e.1, e.2.2.2], [e.2.1, e.2.2.2], [e.1, e.2.2.1], [e.2.1, e.2.2.1], [e.1, e.2.2.2], [e.2.1, e.2.2.2]]⟩

theorem blocksPlan_apart : (∀ j < 9, adjacentB blocksPlan 0 j = true → j = 0) ∧
    adjacentB [⟨[1, 1, 1], [[0, 0], [1, 0], [0, 1], [1, 1], [0, 0], [1, 0], [0, 1], [1, 1]]⟩, ⟨[1, 1, 2], List.replicate 12 [1, 1]⟩] 0 1 = false ∧
    adjacentB [⟨[1, 1, 1], [[0, 0], [1, 0], [0, 1], [1, 1], [0, 0], [1, 0], [0, 1], [1, 1]]⟩, ⟨[1, 1, 1], List.replicate 8 [1, 1]⟩] 0 1 = false := by decide +kernel

theorem blocks_plan {w lo hi z0 z1 : K} (hw : 0 < w ∧ w < 1 / 2) (hl : 0 < lo ∧ lo < w) (hh : 1 - w < hi ∧ hi < 1) : (blocks w lo hi z0 z1).map (mapPatch (plan w)) = blocksPlan := by
  have a0 : (0 : K) = 0 := rfl
  have a1 : ¬ w = 0 := hw.1.ne'
  have a2 : ¬ (1 - w = 0) := by linarith
  have a3 : ¬ (1 - w = w) := by intro h; linarith
  have a4 : ¬ ((1 : K) = w) := by intro h; linarith
  have a5 : ¬ lo = 0 := hl.1.ne'
  have a6 : ¬ lo = w := hl.2.ne
  have a7 : ¬ hi = 0 := by linarith
  have a8 : ¬ hi = w := by linarith
  simp [blocks, block, mapPatch, plan, blocksPlan, a1, a2, a3, a4, a5, a6, a7, a8]

/-- the plan of a closing tile with a gap: the block in the corner has no face in common with any other patch -/
theorem gap_apart {w lo hi z0 z1 : K} (hw : 0 < w ∧ w < 1 / 2) (hl : 0 < lo ∧ lo < w) (hh : 1 - w < hi ∧ hi < 1) (B : Patch K)
    (hB : mapPatch (fun r => (r.take 2).map fun x => if x = 0 then 0 else 1) B = (⟨[1, 1, 2], List.replicate 12 [1, 1]⟩ : Patch ℕ) ∨
      mapPatch (fun r => (r.take 2).map fun x => if x = 0 then 0 else 1) B = (⟨[1, 1, 1], List.replicate 8 [1, 1]⟩ : Patch ℕ)) :
    ¬ Connected (blocks w lo hi z0 z1 ++ [B]) := by
  have len : (blocks w lo hi z0 z1).length = 9 := rfl
  refine not_connected 0 (by simp [len]) 1 (by simp [len]) (by omega) fun j hj => ?_
  obtain ⟨P, Q, hP, hQ, hs⟩ := hj
  have hj : j < 10 := by have := (List.getElem?_eq_some_iff.1 hQ).1; simpa [len] using this
  have eP : P = block 0 w 0 w z0 z1 := by
    rw [List.getElem?_append_left (by omega)] at hP
    exact (Option.some.inj hP).symm
  by_cases h9 : j < 9
  · refine blocksPlan_apart.1 j h9 ?_
    rw [List.getElem?_append_left (by omega)] at hP hQ
    rw [← blocks_plan (z0 := z0) (z1 := z1) hw hl hh]
    simp only [adjacentB, List.getElem?_map, hP, hQ, Option.map_some]
    simpa using hs.imp (shares_map rfl) (shares_map rfl)
  · obtain rfl : j = 9 := by omega
    exfalso
    have eQ : Q = B := by
      rw [List.getElem?_append_right (by omega), len] at hQ
      exact (Option.some.inj hQ).symm
    subst eP eQ
    have mP : mapPatch (fun r => (r.take 2).map fun x => if x = 0 then 0 else 1) (block 0 w 0 w z0 z1) =
        (⟨[1, 1, 1], [[0, 0], [1, 0], [0, 1], [1, 1], [0, 0], [1, 0], [0, 1], [1, 1]]⟩ : Patch ℕ) := by simp [mapPatch, block, hw.1.ne']
    have hs' := hs.imp (shares_map (φ := fun r => (r.take 2).map fun x => if x = 0 then 0 else 1) rfl) (shares_map (φ := fun r => (r.take 2).map fun x => if x = 0 then 0 else 1) rfl)
    rw [mP] at hs'
    rcases hB with hB | hB <;> rw [hB] at hs'
    · have := blocksPlan_apart.2.1
      simp only [adjacentB, List.getElem?_cons_zero, List.getElem?_cons_succ, Bool.or_eq_false_iff, decide_eq_false_iff_not] at this
      exact hs'.elim this.1 this.2
    · have := blocksPlan_apart.2.2
      simp only [adjacentB, List.getElem?_cons_zero, List.getElem?_cons_succ, Bool.or_eq_false_iff, decide_eq_false_iff_not] at this
      exact hs'.elim this.1 this.2

theorem closing_gap {w z0 z1 r zm ze : K} (hw : 1 / 3 < w ∧ w < 1 / 2) (hr : 0 < r ∧ r < 1 / 2) :
    ¬ Connected (blocks w (max (w - (1 - 2 * w)) 0) (min (1 - w + (1 - 2 * w)) 1) z0 z1 ++ [branch ((1 - 2 * w) * (1 / 2)) r r z1 zm ze]) ∧
    ¬ Connected (blocks w (max (w - (1 - 2 * w)) 0) (min (1 - w + (1 - 2 * w)) 1) z0 z1 ++ [branchLinear ((1 - 2 * w) * (1 / 2)) r z1 ze]) ∧
    ¬ Connected (blocks w (max (w - (1 - 2 * w)) 0) (min (1 - w + (1 - 2 * w)) 1) z0 z1 ++ [branch r r ((1 - 2 * w) * (1 / 2)) ze zm z0]) ∧
    ¬ Connected (blocks w (max (w - (1 - 2 * w)) 0) (min (1 - w + (1 - 2 * w)) 1) z0 z1 ++ [branchLinear r ((1 - 2 * w) * (1 / 2)) ze z0]) := by
  have lo : max (w - (1 - 2 * w)) 0 = w - (1 - 2 * w) := max_eq_left (by linarith)
  have hi : min (1 - w + (1 - 2 * w)) 1 = 1 - w + (1 - 2 * w) := min_eq_left (by linarith)
  have e1 : ¬ 1 / 2 - (1 - 2 * w) * (1 / 2) = 0 := by intro h; linarith
  have e2 : ¬ 1 / 2 + (1 - 2 * w) * (1 / 2) = 0 := by intro h; linarith
  have e3 : ¬ 1 / 2 - r = 0 := by intro h; linarith
  have e4 : ¬ 1 / 2 + r = 0 := by intro h; linarith
  rw [lo, hi]
  have hw' : 0 < w ∧ w < 1 / 2 := ⟨by linarith, hw.2⟩
  have hl : 0 < w - (1 - 2 * w) ∧ w - (1 - 2 * w) < w := ⟨by linarith, by linarith⟩
  have hh : 1 - w < 1 - w + (1 - 2 * w) ∧ 1 - w + (1 - 2 * w) < 1 := ⟨by linarith, by linarith⟩
  refine ⟨gap_apart hw' hl hh _ (Or.inl ?_), gap_apart hw' hl hh _ (Or.inr ?_), gap_apart hw' hl hh _ (Or.inl ?_), gap_apart hw' hl hh _ (Or.inr ?_)⟩ <;>
    simp only [mapPatch, branch, branchLinear, List.map_cons, List.map_nil, List.take_succ_cons, List.take_zero, e1, e2, e3, e4, if_false] <;> rfl

/-- `Cross3D`: the tiles which close a face fall apart for all accepted widths of the boundary above one third: the block in a corner of the closed face has no face in common with another
patch. -/
theorem cross3D_connected_violates (expansion bound fill : K) (hb : 1 / 3 < bound) (closure : String) (p : Option (Mat K)) (s : Option (List (Mat K))) (T : Tile K)
    (h : createCross3D expansion bound fill (some closure) p s = some T) : ¬ Connected T.splines := by
  simp only [createCross3D, Option.ite_none_right_eq_some, Bool.and_eq_true] at h
  obtain ⟨⟨⟨⟨-, h1⟩, -⟩, -⟩, h⟩ := h
  generalize p.getD (constant 6 1 (1 / 5)) = p at h h1
  obtain ⟨a, b, c, d, e, f, rfl⟩ := params_six h1
  simp only [cross3DClosing, Option.ite_none_right_eq_some, Bool.and_eq_true, decide_eq_true_eq] at h
  obtain ⟨⟨⟨⟨h2, -⟩, g1, g2⟩, g3, g4⟩, h⟩ := h
  rw [within_iff] at h2
  cases ht : cross3DCloseBranch closure (closeValues cross3DCloseZMin bound fill) (closeValues cross3DCloseZMax bound fill) [[a], [b], [c], [d], [e], [f]] with
  | none => simp [ht] at h
  | some t =>
    simp only [ht, Option.some.injEq] at h
    subst h
    simp only [cross3DCloseBranch, entry, List.getD_cons_zero, List.getD_cons_succ] at ht
    split_ifs at ht with e1 e2 <;> rw [Option.some.injEq] at ht <;> subst ht
    · simp only [assemble, (close_z_min_eq bound fill _ ⟨g1, g2⟩ ⟨g3, g4⟩).1]
      exact (closing_gap ⟨hb, g2⟩ (h2 [f] (by simp) f (by simp))).1
    · simp only [assemble, (close_z_max_eq bound fill _ ⟨g1, g2⟩ ⟨g3, g4⟩).1]
      exact (closing_gap ⟨hb, g2⟩ (h2 [e] (by simp) e (by simp))).2.2.1

example : (createCross3D 1 (2 / 5) (1 / 4) (some "z_min") (some [[1 / 5], [1 / 4], [3 / 10], [1 / 3], [1 / 5], [1 / 6]]) none : Option (Tile ℚ)).isSome := by decide +kernel

/-- The same for `Cross3DLinear`. -/
theorem cross3DLinear_connected_violates (expansion bound fill : K) (hb : 1 / 3 < bound) (closure : String) (p : Option (Mat K)) (s : Option (List (Mat K))) (T : Tile K)
    (h : createCross3DLinear expansion bound fill (some closure) p s = some T) : ¬ Connected T.splines := by
  simp only [createCross3DLinear, Option.ite_none_right_eq_some, Bool.and_eq_true] at h
  obtain ⟨⟨⟨⟨-, h1⟩, -⟩, -⟩, h⟩ := h
  generalize p.getD (constant 6 1 (1 / 5)) = p at h h1
  obtain ⟨a, b, c, d, e, f, rfl⟩ := params_six h1
  simp only [cross3DLinearClosing, Option.ite_none_right_eq_some, Bool.and_eq_true, decide_eq_true_eq] at h
  obtain ⟨⟨⟨⟨h2, -⟩, g1, g2⟩, g3, g4⟩, h⟩ := h
  rw [within_iff] at h2
  cases ht : cross3DCloseBranch closure (closeValues cross3DLinearCloseZMin bound fill) (closeValues cross3DLinearCloseZMax bound fill) [[a], [b], [c], [d], [e], [f]] with
  | none => simp [ht] at h
  | some t =>
    simp only [ht, Option.some.injEq] at h
    subst h
    simp only [cross3DCloseBranch, entry, List.getD_cons_zero, List.getD_cons_succ] at ht
    split_ifs at ht with e1 e2 <;> rw [Option.some.injEq] at ht <;> subst ht
    · simp only [assemble, (close_z_min_eq bound fill _ ⟨g1, g2⟩ ⟨g3, g4⟩).2]
      exact (closing_gap (zm := 0) ⟨hb, g2⟩ (h2 [f] (by simp) f (by simp))).2.1
    · simp only [assemble, (close_z_max_eq bound fill _ ⟨g1, g2⟩ ⟨g3, g4⟩).2]
      exact (closing_gap (zm := 0) ⟨hb, g2⟩ (h2 [e] (by simp) e (by simp))).2.2.2

example : (createCross3DLinear 1 (2 / 5) (1 / 4) (some "z_max") (some [[1 / 5], [1 / 4], [3 / 10], [1 / 3], [1 / 5], [1 / 6]]) none : Option (Tile ℚ)).isSome := by decide +kernel

end

/-! ### Tiles with angles -/

/-- `Chi`: the four curves meet in the middle. -/
theorem chi_connected (closure : Option String) (p : Option (Mat ℝ)) (s : Option (List (Mat ℝ))) (T : Tile ℝ) (h : createChi closure p s = some T) : Connected T.splines := by
  simp only [createChi, Option.ite_none_right_eq_some, Option.some.injEq] at h
  replace h := h.2
  subst h
  simp only [assemble, chiTile, chi_code]
  exact connected_code 13 _

theorem applyRows_eq (m : Mat3) (l : List (List ℝ)) : applyRows m l = l.map fun r => [∑ l : Fin 3, m 0 l * r.getD l 0, ∑ l : Fin 3, m 1 l * r.getD l 0, ∑ l : Fin 3, m 2 l * r.getD l 0] := by
  simp only [applyRows]
  refine List.map_congr_left fun r _ => ?_
  rfl

/-- `CubeVoid`. -/
theorem cube_void_connected (closure : Option String) (p : Option (Mat ℝ)) (s : Option (List (Mat ℝ))) (T : Tile ℝ) (h : createCubeVoid closure p s = some T) :
    Connected T.splines := by
  simp only [createCubeVoid, Option.ite_none_right_eq_some, Option.some.injEq] at h
  replace h := h.2
  subst h
  generalize p.getD [[1 / 2, 1 / 2, 0, 0]] = p
  simp only [assemble]
  obtain ⟨x, e⟩ : ∃ x : ℕ → ℕ → ℝ, voidPoints cubeSphere p =
      [[x 0 0, x 0 1, x 0 2], [x 1 0, x 1 1, x 1 2], [x 2 0, x 2 1, x 2 2], [x 3 0, x 3 1, x 3 2], [x 4 0, x 4 1, x 4 2], [x 5 0, x 5 1, x 5 2], [x 6 0, x 6 1, x 6 2], [x 7 0, x 7 1, x 7 2]] := by
    refine ⟨fun i j => ((voidPoints cubeSphere p).getD i []).getD j 0, ?_⟩
    rw [voidPoints, applyRows_eq]
    rfl
  rw [e, cubeVoid_code]
  exact connected_code 14 _

/-- `EllipsVoid`. -/
theorem ellips_void_connected (closure : Option String) (p : Option (Mat ℝ)) (s : Option (List (Mat ℝ))) (T : Tile ℝ) (h : createEllipsVoid closure p s = some T) :
    Connected T.splines := by
  simp only [createEllipsVoid, Option.ite_none_right_eq_some, Option.some.injEq] at h
  replace h := h.2
  subst h
  generalize p.getD [[1 / 2, 1 / 2, 0, 0]] = p
  simp only [assemble]
  obtain ⟨x, e⟩ : ∃ x : ℕ → ℕ → ℝ, voidPoints ellipsSphere p =
      [[x 0 0, x 0 1, x 0 2], [x 1 0, x 1 1, x 1 2], [x 2 0, x 2 1, x 2 2], [x 3 0, x 3 1, x 3 2], [x 4 0, x 4 1, x 4 2], [x 5 0, x 5 1, x 5 2], [x 6 0, x 6 1, x 6 2], [x 7 0, x 7 1, x 7 2], [x 8 0, x 8 1, x 8 2], [x 9 0, x 9 1, x 9 2], [x 10 0, x 10 1, x 10 2], [x 11 0, x 11 1, x 11 2], [x 12 0, x 12 1, x 12 2], [x 13 0, x 13 1, x 13 2], [x 14 0, x 14 1, x 14 2], [x 15 0, x 15 1, x 15 2], [x 16 0, x 16 1, x 16 2], [x 17 0, x 17 1, x 17 2], [x 18 0, x 18 1, x 18 2], [x 19 0, x 19 1, x 19 2], [x 20 0, x 20 1, x 20 2], [x 21 0, x 21 1, x 21 2], [x 22 0, x 22 1, x 22 2], [x 23 0, x 23 1, x 23 2], [x 24 0, x 24 1, x 24 2], [x 25 0, x 25 1, x 25 2], [x 26 0, x 26 1, x 26 2]] := by
    refine ⟨fun i j => ((voidPoints ellipsSphere p).getD i []).getD j 0, ?_⟩
    rw [voidPoints, applyRows_eq]
    rfl
  rw [e, ellipsVoid_code]
  exact connected_code 15 _

example : (createChi none none none).isSome = true ∧ (createCubeVoid none (some [[1 / 3, 1 / 4, 1, 2]]) none).isSome = true ∧
    (createEllipsVoid none (some [[1 / 3, 1 / 4, 1, 2]]) none).isSome = true := by
  refine ⟨?_, ?_, ?_⟩
  · rw [createChi, if_pos (by simp [checkParams, checkDerivatives])]; rfl
  · rw [createCubeVoid, if_pos (by simp [checkDerivatives])]; rfl
  · rw [createEllipsVoid, if_pos (by simp [checkDerivatives])]; rfl

end Splinepy.Tiles
