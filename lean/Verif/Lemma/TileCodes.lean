import Verif.Lemma.TileCode
import Verif.Model.TileShapesMore
import Mathlib.Tactic.Ring

/-!
The tiles of `Model/TileShapes.lean` and `Model/TileShapesMore.lean`, as tiles of numbers and tables of values (generated from these files; the theorems check that the tables are right).
-/

namespace Splinepy.Tiles

section
variable {K : Type} [Field K] [LinearOrder K] [IsStrictOrderedRing K]

/-- table of values -/
def armadilloTable (w h i : K) : List K := [0, 1, 1 / 2 + w, 1 / 2 - i, 1 / 2 + i, 1 / 2 - h, 1 / 2 + h, 1 / 2 - w]

/-- `armadillo` in the order of the expressions of the source -/
def armadilloRaw : List (Patch ℕ) := [
  ⟨[1, 1, 1], [[0, 1, 2], [3, 4, 5], [0, 1, 6], [3, 4, 7], [0, 8, 2], [3, 9, 5], [0, 8, 6], [3, 9, 7]]⟩,
  ⟨[1, 1, 1], [[0, 8, 2], [3, 9, 5], [0, 8, 6], [3, 9, 7], [8, 0, 2], [9, 3, 5], [8, 0, 6], [9, 3, 7]]⟩,
  ⟨[1, 1, 1], [[9, 10, 5], [8, 11, 2], [9, 10, 7], [8, 11, 6], [4, 10, 5], [1, 11, 2], [4, 10, 7], [1, 11, 6]]⟩,
  ⟨[1, 1, 1], [[11, 1, 2], [10, 4, 5], [11, 1, 6], [10, 4, 7], [1, 11, 2], [4, 10, 5], [1, 11, 6], [4, 10, 7]]⟩,
  ⟨[1, 1, 1], [[10, 4, 5], [11, 1, 2], [10, 4, 7], [11, 1, 6], [10, 9, 5], [11, 8, 2], [10, 9, 7], [11, 8, 6]]⟩,
  ⟨[1, 1, 1], [[10, 9, 5], [11, 8, 2], [10, 9, 7], [11, 8, 6], [4, 3, 5], [1, 0, 2], [4, 3, 7], [1, 0, 6]]⟩,
  ⟨[1, 1, 1], [[8, 0, 2], [9, 3, 5], [8, 0, 6], [9, 3, 7], [1, 0, 2], [4, 3, 5], [1, 0, 6], [4, 3, 7]]⟩,
  ⟨[1, 1, 1], [[8, 11, 2], [9, 10, 5], [8, 11, 6], [9, 10, 7], [0, 1, 2], [3, 4, 5], [0, 1, 6], [3, 4, 7]]⟩,
  ⟨[1, 1, 1], [[5, 5, 10], [7, 5, 10], [5, 7, 10], [7, 7, 10], [2, 2, 12], [6, 2, 12], [2, 6, 12], [6, 6, 12]]⟩,
  ⟨[1, 1, 1], [[2, 2, 13], [6, 2, 13], [2, 6, 13], [6, 6, 13], [5, 5, 3], [7, 5, 3], [5, 7, 3], [7, 7, 3]]⟩,
  ⟨[1, 1, 1], [[9, 3, 5], [4, 3, 5], [8, 13, 2], [1, 13, 2], [5, 5, 3], [7, 5, 3], [2, 2, 13], [6, 2, 13]]⟩,
  ⟨[1, 1, 1], [[9, 3, 7], [4, 3, 7], [5, 5, 10], [7, 5, 10], [8, 13, 6], [1, 13, 6], [2, 2, 12], [6, 2, 12]]⟩,
  ⟨[1, 1, 1], [[5, 7, 10], [7, 7, 10], [5, 10, 7], [7, 10, 7], [2, 6, 12], [6, 6, 12], [8, 12, 6], [1, 12, 6]]⟩,
  ⟨[1, 1, 1], [[5, 7, 3], [7, 7, 3], [2, 6, 13], [6, 6, 13], [9, 10, 5], [4, 10, 5], [8, 12, 2], [1, 12, 2]]⟩,
  ⟨[1, 1, 1], [[5, 5, 3], [5, 7, 3], [2, 2, 13], [2, 6, 13], [3, 5, 5], [3, 7, 5], [13, 2, 2], [13, 6, 2]]⟩,
  ⟨[1, 1, 1], [[7, 5, 3], [7, 7, 3], [10, 5, 5], [10, 7, 5], [6, 2, 13], [6, 6, 13], [12, 2, 2], [12, 6, 2]]⟩,
  ⟨[1, 1, 1], [[10, 5, 7], [10, 7, 7], [7, 5, 10], [7, 7, 10], [12, 2, 6], [12, 6, 6], [6, 2, 12], [6, 6, 12]]⟩,
  ⟨[1, 1, 1], [[3, 9, 7], [3, 4, 7], [0, 8, 6], [0, 1, 6], [5, 5, 10], [5, 7, 10], [2, 2, 12], [2, 6, 12]]⟩]

/-- `armadillo` -/
def armadilloCode : List (Patch ℕ) := decode (fun n => ([2, 3, 4, 1, 5, 6, 3, 5, 4, 6, 0, 7, 7, 2] : List ℕ).getD n 0) armadilloRaw

set_option maxRecDepth 100000 in
set_option maxHeartbeats 4000000 in
theorem armadillo_code (w h i : K) : armadillo 0 (1 / 2) 1 w h i = decode (look (armadilloTable w h i)) armadilloCode := by
  refine Eq.trans (show _ = decode (look ([(w + (1 / 2)), ((-i) + (1 / 2)), ((1 / 2) + i), 1, ((-h) + (1 / 2)), ((1 / 2) + h), ((1 / 2) - i), ((1 / 2) - h), (i + (1 / 2)), (h + (1 / 2)), 0, ((-w) + (1 / 2)), ((1 / 2) - w), ((1 / 2) + w)] : List K)) armadilloRaw from rfl) (recode [2, 3, 4, 1, 5, 6, 3, 5, 4, 6, 0, 7, 7, 2] ?_ (by decide +kernel))
  simp only [look, armadilloTable, List.map_cons, List.map_nil, List.getD_cons_zero, List.getD_cons_succ, List.cons.injEq, and_true]
  and_intros <;> first | trivial | rfl | ring

/-- `armadilloCloseXMin` in the order of the expressions of the source -/
def armadilloCloseXMinRaw : List (Patch ℕ) := [
  ⟨[1, 1, 1], [[0, 1, 0], [0, 0, 0], [2, 3, 0], [2, 2, 0], [4, 5, 6], [4, 6, 6], [6, 5, 4], [6, 6, 4]]⟩,
  ⟨[1, 1, 1], [[1, 7, 2], [1, 8, 2], [9, 10, 6], [9, 11, 6], [3, 3, 0], [3, 2, 0], [5, 5, 4], [5, 6, 4]]⟩,
  ⟨[1, 1, 1], [[3, 2, 0], [2, 2, 0], [3, 0, 2], [2, 0, 2], [5, 6, 4], [6, 6, 4], [10, 4, 6], [11, 4, 6]]⟩,
  ⟨[1, 1, 1], [[7, 1, 2], [8, 1, 2], [3, 3, 0], [2, 3, 0], [10, 12, 6], [11, 12, 6], [5, 5, 4], [6, 5, 4]]⟩,
  ⟨[1, 1, 1], [[7, 1, 3], [8, 1, 3], [10, 12, 5], [11, 12, 5], [3, 3, 1], [2, 3, 1], [5, 5, 12], [6, 5, 12]]⟩,
  ⟨[1, 1, 1], [[3, 2, 1], [2, 2, 1], [5, 6, 12], [6, 6, 12], [7, 0, 3], [8, 0, 3], [10, 4, 5], [11, 4, 5]]⟩,
  ⟨[1, 1, 1], [[3, 3, 1], [3, 2, 1], [5, 5, 12], [5, 6, 12], [1, 3, 3], [1, 2, 3], [12, 5, 5], [12, 6, 5]]⟩,
  ⟨[1, 1, 1], [[0, 1, 1], [13, 10, 5], [0, 1, 0], [13, 10, 6], [8, 1, 3], [11, 9, 5], [8, 1, 2], [11, 9, 6]]⟩,
  ⟨[1, 1, 1], [[9, 11, 5], [1, 8, 3], [9, 11, 6], [1, 8, 2], [9, 10, 5], [1, 7, 3], [9, 10, 6], [1, 7, 2]]⟩,
  ⟨[1, 1, 1], [[9, 10, 5], [1, 7, 3], [9, 10, 6], [1, 7, 2], [10, 9, 5], [7, 1, 3], [10, 9, 6], [7, 1, 2]]⟩,
  ⟨[1, 1, 1], [[7, 0, 3], [10, 13, 5], [7, 0, 2], [10, 13, 6], [8, 0, 3], [11, 13, 5], [8, 0, 2], [11, 13, 6]]⟩,
  ⟨[1, 1, 1], [[13, 11, 5], [0, 0, 1], [13, 11, 6], [0, 0, 0], [11, 13, 5], [8, 0, 3], [11, 13, 6], [8, 0, 2]]⟩,
  ⟨[1, 1, 1], [[0, 1, 1], [13, 11, 5], [0, 0, 1], [13, 11, 6], [0, 1, 0], [13, 10, 5], [0, 0, 0], [13, 10, 6]]⟩,
  ⟨[1, 1, 1], [[2, 3, 1], [2, 2, 1], [0, 1, 1], [0, 0, 1], [6, 5, 12], [6, 6, 12], [4, 5, 5], [4, 6, 5]]⟩,
  ⟨[1, 1, 1], [[10, 9, 5], [7, 1, 3], [10, 9, 6], [7, 1, 2], [11, 9, 5], [8, 1, 3], [11, 9, 6], [8, 1, 2]]⟩,
  ⟨[1, 1, 1], [[10, 13, 5], [7, 0, 3], [10, 13, 6], [7, 0, 2], [9, 11, 5], [1, 8, 3], [9, 11, 6], [1, 8, 2]]⟩,
  ⟨[1, 1, 1], [[3, 3, 0], [2, 3, 0], [3, 2, 0], [2, 2, 0], [5, 5, 4], [6, 5, 4], [5, 6, 4], [6, 6, 4]]⟩,
  ⟨[1, 1, 1], [[5, 5, 12], [6, 5, 12], [5, 6, 12], [6, 6, 12], [3, 3, 1], [2, 3, 1], [3, 2, 1], [2, 2, 1]]⟩]

/-- `armadilloCloseXMin` -/
def armadilloCloseXMinCode : List (Patch ℕ) := decode (fun n => ([0, 1, 5, 6, 7, 4, 3, 6, 5, 2, 4, 3, 2, 7] : List ℕ).getD n 0) armadilloCloseXMinRaw

set_option maxRecDepth 100000 in
set_option maxHeartbeats 4000000 in
theorem armadilloCloseXMin_code (w h i : K) : armadilloCloseXMin 0 (1 / 2) 1 w h i = decode (look (armadilloTable w h i)) armadilloCloseXMinCode := by
  refine Eq.trans (show _ = decode (look ([0, 1, ((1 / 2) - h), ((1 / 2) + h), ((1 / 2) - w), ((1 / 2) + i), ((1 / 2) - i), (h + (1 / 2)), ((-h) + (1 / 2)), (w + (1 / 2)), (i + (1 / 2)), ((-i) + (1 / 2)), ((1 / 2) + w), ((-w) + (1 / 2))] : List K)) armadilloCloseXMinRaw from rfl) (recode [0, 1, 5, 6, 7, 4, 3, 6, 5, 2, 4, 3, 2, 7] ?_ (by decide +kernel))
  simp only [look, armadilloTable, List.map_cons, List.map_nil, List.getD_cons_zero, List.getD_cons_succ, List.cons.injEq, and_true]
  and_intros <;> first | trivial | rfl | ring

/-- `armadilloCloseXMax` in the order of the expressions of the source -/
def armadilloCloseXMaxRaw : List (Patch ℕ) := [
  ⟨[1, 1, 1], [[0, 1, 2], [0, 2, 2], [2, 1, 0], [2, 2, 0], [3, 4, 5], [3, 5, 5], [5, 4, 3], [5, 5, 3]]⟩,
  ⟨[1, 1, 1], [[6, 6, 0], [6, 0, 0], [7, 8, 5], [7, 9, 5], [1, 1, 0], [1, 2, 0], [4, 4, 3], [4, 5, 3]]⟩,
  ⟨[1, 1, 1], [[1, 2, 0], [2, 2, 0], [1, 0, 2], [2, 0, 2], [4, 5, 3], [5, 5, 3], [8, 3, 5], [9, 3, 5]]⟩,
  ⟨[1, 1, 1], [[10, 6, 2], [11, 6, 2], [1, 1, 0], [2, 1, 0], [8, 12, 5], [9, 12, 5], [4, 4, 3], [5, 4, 3]]⟩,
  ⟨[1, 1, 1], [[10, 6, 1], [11, 6, 1], [8, 12, 4], [9, 12, 4], [1, 1, 6], [2, 1, 6], [4, 4, 12], [5, 4, 12]]⟩,
  ⟨[1, 1, 1], [[1, 2, 6], [2, 2, 6], [4, 5, 12], [5, 5, 12], [10, 0, 1], [11, 0, 1], [8, 3, 4], [9, 3, 4]]⟩,
  ⟨[1, 1, 1], [[1, 1, 6], [1, 2, 6], [4, 4, 12], [4, 5, 12], [6, 6, 6], [6, 0, 6], [12, 4, 4], [12, 5, 4]]⟩,
  ⟨[1, 1, 1], [[0, 10, 1], [13, 8, 4], [0, 10, 2], [13, 8, 5], [11, 6, 1], [9, 7, 4], [11, 6, 2], [9, 7, 5]]⟩,
  ⟨[1, 1, 1], [[7, 9, 4], [6, 0, 6], [7, 9, 5], [6, 0, 0], [7, 8, 4], [6, 6, 6], [7, 8, 5], [6, 6, 0]]⟩,
  ⟨[1, 1, 1], [[7, 8, 4], [6, 6, 6], [7, 8, 5], [6, 6, 0], [8, 7, 4], [10, 6, 1], [8, 7, 5], [10, 6, 2]]⟩,
  ⟨[1, 1, 1], [[10, 0, 1], [8, 13, 4], [10, 0, 2], [8, 13, 5], [11, 0, 1], [9, 13, 4], [11, 0, 2], [9, 13, 5]]⟩,
  ⟨[1, 1, 1], [[13, 9, 4], [0, 11, 1], [13, 9, 5], [0, 11, 2], [9, 13, 4], [11, 0, 1], [9, 13, 5], [11, 0, 2]]⟩,
  ⟨[1, 1, 1], [[0, 11, 1], [13, 9, 4], [0, 11, 2], [13, 9, 5], [0, 10, 1], [13, 8, 4], [0, 10, 2], [13, 8, 5]]⟩,
  ⟨[1, 1, 1], [[2, 1, 6], [2, 2, 6], [0, 1, 1], [0, 2, 1], [5, 4, 12], [5, 5, 12], [3, 4, 4], [3, 5, 4]]⟩,
  ⟨[1, 1, 1], [[8, 7, 4], [10, 6, 1], [8, 7, 5], [10, 6, 2], [9, 7, 4], [11, 6, 1], [9, 7, 5], [11, 6, 2]]⟩,
  ⟨[1, 1, 1], [[8, 13, 4], [10, 0, 1], [8, 13, 5], [10, 0, 2], [7, 9, 4], [6, 0, 6], [7, 9, 5], [6, 0, 0]]⟩,
  ⟨[1, 1, 1], [[1, 1, 0], [2, 1, 0], [1, 2, 0], [2, 2, 0], [4, 4, 3], [5, 4, 3], [4, 5, 3], [5, 5, 3]]⟩,
  ⟨[1, 1, 1], [[4, 4, 12], [5, 4, 12], [4, 5, 12], [5, 5, 12], [1, 1, 6], [2, 1, 6], [1, 2, 6], [2, 2, 6]]⟩]

/-- `armadilloCloseXMax` -/
def armadilloCloseXMaxCode : List (Patch ℕ) := decode (fun n => ([0, 6, 5, 7, 4, 3, 1, 2, 4, 3, 6, 5, 2, 7] : List ℕ).getD n 0) armadilloCloseXMaxRaw

set_option maxRecDepth 100000 in
set_option maxHeartbeats 4000000 in
theorem armadilloCloseXMax_code (w h i : K) : armadilloCloseXMax 0 (1 / 2) 1 w h i = decode (look (armadilloTable w h i)) armadilloCloseXMaxCode := by
  refine Eq.trans (show _ = decode (look ([0, ((1 / 2) + h), ((1 / 2) - h), ((1 / 2) - w), ((1 / 2) + i), ((1 / 2) - i), 1, (w + (1 / 2)), (i + (1 / 2)), ((-i) + (1 / 2)), (h + (1 / 2)), ((-h) + (1 / 2)), ((1 / 2) + w), ((-w) + (1 / 2))] : List K)) armadilloCloseXMaxRaw from rfl) (recode [0, 6, 5, 7, 4, 3, 1, 2, 4, 3, 6, 5, 2, 7] ?_ (by decide +kernel))
  simp only [look, armadilloTable, List.map_cons, List.map_nil, List.getD_cons_zero, List.getD_cons_succ, List.cons.injEq, and_true]
  and_intros <;> first | trivial | rfl | ring

/-- `armadilloCloseYMin` in the order of the expressions of the source -/
def armadilloCloseYMinRaw : List (Patch ℕ) := [
  ⟨[1, 1, 1], [[0, 1, 2], [0, 2, 2], [2, 1, 0], [2, 2, 0], [3, 4, 5], [3, 5, 5], [5, 4, 3], [5, 5, 3]]⟩,
  ⟨[1, 1, 1], [[6, 7, 2], [6, 8, 2], [9, 10, 5], [9, 11, 5], [1, 1, 0], [1, 2, 0], [4, 4, 3], [4, 5, 3]]⟩,
  ⟨[1, 1, 1], [[1, 2, 0], [2, 2, 0], [6, 0, 0], [0, 0, 0], [4, 5, 3], [5, 5, 3], [10, 3, 5], [11, 3, 5]]⟩,
  ⟨[1, 1, 1], [[7, 6, 2], [8, 6, 2], [1, 1, 0], [2, 1, 0], [10, 12, 5], [11, 12, 5], [4, 4, 3], [5, 4, 3]]⟩,
  ⟨[1, 1, 1], [[7, 6, 1], [8, 6, 1], [10, 12, 4], [11, 12, 4], [1, 1, 6], [2, 1, 6], [4, 4, 12], [5, 4, 12]]⟩,
  ⟨[1, 1, 1], [[1, 2, 6], [2, 2, 6], [4, 5, 12], [5, 5, 12], [6, 0, 6], [0, 0, 6], [10, 3, 4], [11, 3, 4]]⟩,
  ⟨[1, 1, 1], [[1, 1, 6], [1, 2, 6], [4, 4, 12], [4, 5, 12], [6, 1, 1], [6, 2, 1], [12, 4, 4], [12, 5, 4]]⟩,
  ⟨[1, 1, 1], [[0, 7, 1], [13, 10, 4], [0, 7, 2], [13, 10, 5], [8, 6, 1], [11, 9, 4], [8, 6, 2], [11, 9, 5]]⟩,
  ⟨[1, 1, 1], [[9, 11, 4], [6, 8, 1], [9, 11, 5], [6, 8, 2], [9, 10, 4], [6, 7, 1], [9, 10, 5], [6, 7, 2]]⟩,
  ⟨[1, 1, 1], [[9, 10, 4], [6, 7, 1], [9, 10, 5], [6, 7, 2], [10, 9, 4], [7, 6, 1], [10, 9, 5], [7, 6, 2]]⟩,
  ⟨[1, 1, 1], [[6, 0, 6], [10, 13, 4], [6, 0, 0], [10, 13, 5], [0, 0, 6], [11, 13, 4], [0, 0, 0], [11, 13, 5]]⟩,
  ⟨[1, 1, 1], [[13, 11, 4], [0, 8, 1], [13, 11, 5], [0, 8, 2], [11, 13, 4], [0, 0, 6], [11, 13, 5], [0, 0, 0]]⟩,
  ⟨[1, 1, 1], [[0, 8, 1], [13, 11, 4], [0, 8, 2], [13, 11, 5], [0, 7, 1], [13, 10, 4], [0, 7, 2], [13, 10, 5]]⟩,
  ⟨[1, 1, 1], [[2, 1, 6], [2, 2, 6], [0, 1, 1], [0, 2, 1], [5, 4, 12], [5, 5, 12], [3, 4, 4], [3, 5, 4]]⟩,
  ⟨[1, 1, 1], [[10, 9, 4], [7, 6, 1], [10, 9, 5], [7, 6, 2], [11, 9, 4], [8, 6, 1], [11, 9, 5], [8, 6, 2]]⟩,
  ⟨[1, 1, 1], [[10, 13, 4], [6, 0, 6], [10, 13, 5], [6, 0, 0], [9, 11, 4], [6, 8, 1], [9, 11, 5], [6, 8, 2]]⟩,
  ⟨[1, 1, 1], [[1, 1, 0], [2, 1, 0], [1, 2, 0], [2, 2, 0], [4, 4, 3], [5, 4, 3], [4, 5, 3], [5, 5, 3]]⟩,
  ⟨[1, 1, 1], [[4, 4, 12], [5, 4, 12], [4, 5, 12], [5, 5, 12], [1, 1, 6], [2, 1, 6], [1, 2, 6], [2, 2, 6]]⟩]

/-- `armadilloCloseYMin` -/
def armadilloCloseYMinCode : List (Patch ℕ) := decode (fun n => ([0, 6, 5, 7, 4, 3, 1, 6, 5, 2, 4, 3, 2, 7] : List ℕ).getD n 0) armadilloCloseYMinRaw

set_option maxRecDepth 100000 in
set_option maxHeartbeats 4000000 in
theorem armadilloCloseYMin_code (w h i : K) : armadilloCloseYMin 0 (1 / 2) 1 w h i = decode (look (armadilloTable w h i)) armadilloCloseYMinCode := by
  refine Eq.trans (show _ = decode (look ([0, ((1 / 2) + h), ((1 / 2) - h), ((1 / 2) - w), ((1 / 2) + i), ((1 / 2) - i), 1, (h + (1 / 2)), ((-h) + (1 / 2)), (w + (1 / 2)), (i + (1 / 2)), ((-i) + (1 / 2)), ((1 / 2) + w), ((-w) + (1 / 2))] : List K)) armadilloCloseYMinRaw from rfl) (recode [0, 6, 5, 7, 4, 3, 1, 6, 5, 2, 4, 3, 2, 7] ?_ (by decide +kernel))
  simp only [look, armadilloTable, List.map_cons, List.map_nil, List.getD_cons_zero, List.getD_cons_succ, List.cons.injEq, and_true]
  and_intros <;> first | trivial | rfl | ring

/-- `armadilloCloseYMax` in the order of the expressions of the source -/
def armadilloCloseYMaxRaw : List (Patch ℕ) := [
  ⟨[1, 1, 1], [[0, 1, 2], [0, 2, 2], [2, 1, 0], [2, 2, 0], [3, 4, 5], [3, 5, 5], [5, 4, 3], [5, 5, 3]]⟩,
  ⟨[1, 1, 1], [[6, 7, 2], [6, 8, 2], [9, 10, 5], [9, 11, 5], [1, 1, 0], [1, 2, 0], [4, 4, 3], [4, 5, 3]]⟩,
  ⟨[1, 1, 1], [[1, 2, 0], [2, 2, 0], [1, 0, 2], [2, 0, 2], [4, 5, 3], [5, 5, 3], [10, 3, 5], [11, 3, 5]]⟩,
  ⟨[1, 1, 1], [[6, 6, 0], [0, 6, 0], [1, 1, 0], [2, 1, 0], [10, 12, 5], [11, 12, 5], [4, 4, 3], [5, 4, 3]]⟩,
  ⟨[1, 1, 1], [[6, 6, 6], [0, 6, 6], [10, 12, 4], [11, 12, 4], [1, 1, 6], [2, 1, 6], [4, 4, 12], [5, 4, 12]]⟩,
  ⟨[1, 1, 1], [[1, 2, 6], [2, 2, 6], [4, 5, 12], [5, 5, 12], [7, 0, 1], [8, 0, 1], [10, 3, 4], [11, 3, 4]]⟩,
  ⟨[1, 1, 1], [[1, 1, 6], [1, 2, 6], [4, 4, 12], [4, 5, 12], [6, 1, 1], [6, 2, 1], [12, 4, 4], [12, 5, 4]]⟩,
  ⟨[1, 1, 1], [[2, 1, 6], [2, 2, 6], [0, 1, 1], [0, 2, 1], [5, 4, 12], [5, 5, 12], [3, 4, 4], [3, 5, 4]]⟩,
  ⟨[1, 1, 1], [[9, 11, 4], [6, 8, 1], [9, 11, 5], [6, 8, 2], [9, 10, 4], [6, 7, 1], [9, 10, 5], [6, 7, 2]]⟩,
  ⟨[1, 1, 1], [[9, 10, 4], [6, 7, 1], [9, 10, 5], [6, 7, 2], [10, 9, 4], [6, 6, 6], [10, 9, 5], [6, 6, 0]]⟩,
  ⟨[1, 1, 1], [[7, 0, 1], [10, 13, 4], [7, 0, 2], [10, 13, 5], [8, 0, 1], [11, 13, 4], [8, 0, 2], [11, 13, 5]]⟩,
  ⟨[1, 1, 1], [[13, 11, 4], [0, 8, 1], [13, 11, 5], [0, 8, 2], [11, 13, 4], [8, 0, 1], [11, 13, 5], [8, 0, 2]]⟩,
  ⟨[1, 1, 1], [[0, 8, 1], [13, 11, 4], [0, 8, 2], [13, 11, 5], [0, 7, 1], [13, 10, 4], [0, 7, 2], [13, 10, 5]]⟩,
  ⟨[1, 1, 1], [[0, 7, 1], [13, 10, 4], [0, 7, 2], [13, 10, 5], [0, 6, 6], [11, 9, 4], [0, 6, 0], [11, 9, 5]]⟩,
  ⟨[1, 1, 1], [[10, 9, 4], [6, 6, 6], [10, 9, 5], [6, 6, 0], [11, 9, 4], [0, 6, 6], [11, 9, 5], [0, 6, 0]]⟩,
  ⟨[1, 1, 1], [[10, 13, 4], [7, 0, 1], [10, 13, 5], [7, 0, 2], [9, 11, 4], [6, 8, 1], [9, 11, 5], [6, 8, 2]]⟩,
  ⟨[1, 1, 1], [[1, 1, 0], [2, 1, 0], [1, 2, 0], [2, 2, 0], [4, 4, 3], [5, 4, 3], [4, 5, 3], [5, 5, 3]]⟩,
  ⟨[1, 1, 1], [[4, 4, 12], [5, 4, 12], [4, 5, 12], [5, 5, 12], [1, 1, 6], [2, 1, 6], [1, 2, 6], [2, 2, 6]]⟩]

/-- `armadilloCloseYMax` -/
def armadilloCloseYMaxCode : List (Patch ℕ) := decode (fun n => ([0, 6, 5, 7, 4, 3, 1, 6, 5, 2, 4, 3, 2, 7] : List ℕ).getD n 0) armadilloCloseYMaxRaw

set_option maxRecDepth 100000 in
set_option maxHeartbeats 4000000 in
theorem armadilloCloseYMax_code (w h i : K) : armadilloCloseYMax 0 (1 / 2) 1 w h i = decode (look (armadilloTable w h i)) armadilloCloseYMaxCode := by
  refine Eq.trans (show _ = decode (look ([0, ((1 / 2) + h), ((1 / 2) - h), ((1 / 2) - w), ((1 / 2) + i), ((1 / 2) - i), 1, (h + (1 / 2)), ((-h) + (1 / 2)), (w + (1 / 2)), (i + (1 / 2)), ((-i) + (1 / 2)), ((1 / 2) + w), ((-w) + (1 / 2))] : List K)) armadilloCloseYMaxRaw from rfl) (recode [0, 6, 5, 7, 4, 3, 1, 6, 5, 2, 4, 3, 2, 7] ?_ (by decide +kernel))
  simp only [look, armadilloTable, List.map_cons, List.map_nil, List.getD_cons_zero, List.getD_cons_succ, List.cons.injEq, and_true]
  and_intros <;> first | trivial | rfl | ring

/-- `armadilloCloseZMin` in the order of the expressions of the source -/
def armadilloCloseZMinRaw : List (Patch ℕ) := [
  ⟨[1, 1, 1], [[0, 1, 2], [0, 2, 2], [0, 3, 0], [0, 0, 0], [4, 5, 6], [4, 6, 6], [6, 5, 4], [6, 6, 4]]⟩,
  ⟨[1, 1, 1], [[3, 7, 2], [3, 8, 2], [9, 10, 6], [9, 11, 6], [3, 3, 0], [3, 0, 0], [5, 5, 4], [5, 6, 4]]⟩,
  ⟨[1, 1, 1], [[3, 0, 0], [0, 0, 0], [1, 0, 2], [2, 0, 2], [5, 6, 4], [6, 6, 4], [10, 4, 6], [11, 4, 6]]⟩,
  ⟨[1, 1, 1], [[7, 3, 2], [8, 3, 2], [3, 3, 0], [0, 3, 0], [10, 12, 6], [11, 12, 6], [5, 5, 4], [6, 5, 4]]⟩,
  ⟨[1, 1, 1], [[7, 3, 1], [8, 3, 1], [10, 12, 5], [11, 12, 5], [1, 1, 3], [2, 1, 3], [5, 5, 12], [6, 5, 12]]⟩,
  ⟨[1, 1, 1], [[1, 2, 3], [2, 2, 3], [5, 6, 12], [6, 6, 12], [7, 0, 1], [8, 0, 1], [10, 4, 5], [11, 4, 5]]⟩,
  ⟨[1, 1, 1], [[1, 1, 3], [1, 2, 3], [5, 5, 12], [5, 6, 12], [3, 1, 1], [3, 2, 1], [12, 5, 5], [12, 6, 5]]⟩,
  ⟨[1, 1, 1], [[0, 7, 1], [13, 10, 5], [0, 7, 2], [13, 10, 6], [8, 3, 1], [11, 9, 5], [8, 3, 2], [11, 9, 6]]⟩,
  ⟨[1, 1, 1], [[9, 11, 5], [3, 8, 1], [9, 11, 6], [3, 8, 2], [9, 10, 5], [3, 7, 1], [9, 10, 6], [3, 7, 2]]⟩,
  ⟨[1, 1, 1], [[9, 10, 5], [3, 7, 1], [9, 10, 6], [3, 7, 2], [10, 9, 5], [7, 3, 1], [10, 9, 6], [7, 3, 2]]⟩,
  ⟨[1, 1, 1], [[7, 0, 1], [10, 13, 5], [7, 0, 2], [10, 13, 6], [8, 0, 1], [11, 13, 5], [8, 0, 2], [11, 13, 6]]⟩,
  ⟨[1, 1, 1], [[13, 11, 5], [0, 8, 1], [13, 11, 6], [0, 8, 2], [11, 13, 5], [8, 0, 1], [11, 13, 6], [8, 0, 2]]⟩,
  ⟨[1, 1, 1], [[0, 8, 1], [13, 11, 5], [0, 8, 2], [13, 11, 6], [0, 7, 1], [13, 10, 5], [0, 7, 2], [13, 10, 6]]⟩,
  ⟨[1, 1, 1], [[2, 1, 3], [2, 2, 3], [0, 1, 1], [0, 2, 1], [6, 5, 12], [6, 6, 12], [4, 5, 5], [4, 6, 5]]⟩,
  ⟨[1, 1, 1], [[10, 9, 5], [7, 3, 1], [10, 9, 6], [7, 3, 2], [11, 9, 5], [8, 3, 1], [11, 9, 6], [8, 3, 2]]⟩,
  ⟨[1, 1, 1], [[10, 13, 5], [7, 0, 1], [10, 13, 6], [7, 0, 2], [9, 11, 5], [3, 8, 1], [9, 11, 6], [3, 8, 2]]⟩,
  ⟨[1, 1, 1], [[3, 3, 0], [0, 3, 0], [3, 0, 0], [0, 0, 0], [5, 5, 4], [6, 5, 4], [5, 6, 4], [6, 6, 4]]⟩,
  ⟨[1, 1, 1], [[5, 5, 12], [6, 5, 12], [5, 6, 12], [6, 6, 12], [1, 1, 3], [2, 1, 3], [1, 2, 3], [2, 2, 3]]⟩]

/-- `armadilloCloseZMin` -/
def armadilloCloseZMinCode : List (Patch ℕ) := decode (fun n => ([0, 6, 5, 1, 7, 4, 3, 6, 5, 2, 4, 3, 2, 7] : List ℕ).getD n 0) armadilloCloseZMinRaw

set_option maxRecDepth 100000 in
set_option maxHeartbeats 4000000 in
theorem armadilloCloseZMin_code (w h i : K) : armadilloCloseZMin 0 (1 / 2) 1 w h i = decode (look (armadilloTable w h i)) armadilloCloseZMinCode := by
  refine Eq.trans (show _ = decode (look ([0, ((1 / 2) + h), ((1 / 2) - h), 1, ((1 / 2) - w), ((1 / 2) + i), ((1 / 2) - i), (h + (1 / 2)), ((-h) + (1 / 2)), (w + (1 / 2)), (i + (1 / 2)), ((-i) + (1 / 2)), ((1 / 2) + w), ((-w) + (1 / 2))] : List K)) armadilloCloseZMinRaw from rfl) (recode [0, 6, 5, 1, 7, 4, 3, 6, 5, 2, 4, 3, 2, 7] ?_ (by decide +kernel))
  simp only [look, armadilloTable, List.map_cons, List.map_nil, List.getD_cons_zero, List.getD_cons_succ, List.cons.injEq, and_true]
  and_intros <;> first | trivial | rfl | ring

/-- `armadilloCloseZMax` in the order of the expressions of the source -/
def armadilloCloseZMaxRaw : List (Patch ℕ) := [
  ⟨[1, 1, 1], [[0, 1, 2], [0, 2, 2], [2, 1, 0], [2, 2, 0], [3, 4, 5], [3, 5, 5], [5, 4, 3], [5, 5, 3]]⟩,
  ⟨[1, 1, 1], [[6, 7, 2], [6, 8, 2], [9, 10, 5], [9, 11, 5], [1, 1, 0], [1, 2, 0], [4, 4, 3], [4, 5, 3]]⟩,
  ⟨[1, 1, 1], [[1, 2, 0], [2, 2, 0], [1, 0, 2], [2, 0, 2], [4, 5, 3], [5, 5, 3], [10, 3, 5], [11, 3, 5]]⟩,
  ⟨[1, 1, 1], [[7, 6, 2], [8, 6, 2], [1, 1, 0], [2, 1, 0], [10, 12, 5], [11, 12, 5], [4, 4, 3], [5, 4, 3]]⟩,
  ⟨[1, 1, 1], [[7, 6, 1], [8, 6, 1], [10, 12, 4], [11, 12, 4], [6, 6, 6], [0, 6, 6], [4, 4, 12], [5, 4, 12]]⟩,
  ⟨[1, 1, 1], [[6, 0, 6], [0, 0, 6], [4, 5, 12], [5, 5, 12], [7, 0, 1], [8, 0, 1], [10, 3, 4], [11, 3, 4]]⟩,
  ⟨[1, 1, 1], [[6, 6, 6], [6, 0, 6], [4, 4, 12], [4, 5, 12], [6, 1, 1], [6, 2, 1], [12, 4, 4], [12, 5, 4]]⟩,
  ⟨[1, 1, 1], [[0, 7, 1], [13, 10, 4], [0, 7, 2], [13, 10, 5], [8, 6, 1], [11, 9, 4], [8, 6, 2], [11, 9, 5]]⟩,
  ⟨[1, 1, 1], [[9, 11, 4], [6, 8, 1], [9, 11, 5], [6, 8, 2], [9, 10, 4], [6, 7, 1], [9, 10, 5], [6, 7, 2]]⟩,
  ⟨[1, 1, 1], [[9, 10, 4], [6, 7, 1], [9, 10, 5], [6, 7, 2], [10, 9, 4], [7, 6, 1], [10, 9, 5], [7, 6, 2]]⟩,
  ⟨[1, 1, 1], [[7, 0, 1], [10, 13, 4], [7, 0, 2], [10, 13, 5], [8, 0, 1], [11, 13, 4], [8, 0, 2], [11, 13, 5]]⟩,
  ⟨[1, 1, 1], [[13, 11, 4], [0, 8, 1], [13, 11, 5], [0, 8, 2], [11, 13, 4], [8, 0, 1], [11, 13, 5], [8, 0, 2]]⟩,
  ⟨[1, 1, 1], [[0, 8, 1], [13, 11, 4], [0, 8, 2], [13, 11, 5], [0, 7, 1], [13, 10, 4], [0, 7, 2], [13, 10, 5]]⟩,
  ⟨[1, 1, 1], [[0, 6, 6], [0, 0, 6], [0, 1, 1], [0, 2, 1], [5, 4, 12], [5, 5, 12], [3, 4, 4], [3, 5, 4]]⟩,
  ⟨[1, 1, 1], [[10, 9, 4], [7, 6, 1], [10, 9, 5], [7, 6, 2], [11, 9, 4], [8, 6, 1], [11, 9, 5], [8, 6, 2]]⟩,
  ⟨[1, 1, 1], [[10, 13, 4], [7, 0, 1], [10, 13, 5], [7, 0, 2], [9, 11, 4], [6, 8, 1], [9, 11, 5], [6, 8, 2]]⟩,
  ⟨[1, 1, 1], [[1, 1, 0], [2, 1, 0], [1, 2, 0], [2, 2, 0], [4, 4, 3], [5, 4, 3], [4, 5, 3], [5, 5, 3]]⟩,
  ⟨[1, 1, 1], [[4, 4, 12], [5, 4, 12], [4, 5, 12], [5, 5, 12], [6, 6, 6], [0, 6, 6], [6, 0, 6], [0, 0, 6]]⟩]

/-- `armadilloCloseZMax` -/
def armadilloCloseZMaxCode : List (Patch ℕ) := decode (fun n => ([0, 6, 5, 7, 4, 3, 1, 6, 5, 2, 4, 3, 2, 7] : List ℕ).getD n 0) armadilloCloseZMaxRaw

set_option maxRecDepth 100000 in
set_option maxHeartbeats 4000000 in
theorem armadilloCloseZMax_code (w h i : K) : armadilloCloseZMax 0 (1 / 2) 1 w h i = decode (look (armadilloTable w h i)) armadilloCloseZMaxCode := by
  refine Eq.trans (show _ = decode (look ([0, ((1 / 2) + h), ((1 / 2) - h), ((1 / 2) - w), ((1 / 2) + i), ((1 / 2) - i), 1, (h + (1 / 2)), ((-h) + (1 / 2)), (w + (1 / 2)), (i + (1 / 2)), ((-i) + (1 / 2)), ((1 / 2) + w), ((-w) + (1 / 2))] : List K)) armadilloCloseZMaxRaw from rfl) (recode [0, 6, 5, 7, 4, 3, 1, 6, 5, 2, 4, 3, 2, 7] ?_ (by decide +kernel))
  simp only [look, armadilloTable, List.map_cons, List.map_nil, List.getD_cons_zero, List.getD_cons_succ, List.cons.injEq, and_true]
  and_intros <;> first | trivial | rfl | ring

/-- `hollowOctagonExtrude` in the order of the expressions of the source -/
def hollowOctagonExtrudeRaw : List (Patch ℕ) := [
  ⟨[1, 1, 1], [[0, 1, 2], [3, 4, 2], [0, 5, 2], [3, 6, 2], [0, 1, 3], [3, 4, 3], [0, 5, 3], [3, 6, 3]]⟩,
  ⟨[1, 1, 1], [[0, 5, 2], [3, 6, 2], [5, 0, 2], [6, 3, 2], [0, 5, 3], [3, 6, 3], [5, 0, 3], [6, 3, 3]]⟩,
  ⟨[1, 1, 1], [[6, 2, 2], [5, 7, 2], [4, 2, 2], [1, 7, 2], [6, 2, 3], [5, 7, 3], [4, 2, 3], [1, 7, 3]]⟩,
  ⟨[1, 1, 1], [[7, 1, 2], [2, 4, 2], [1, 7, 2], [4, 2, 2], [7, 1, 3], [2, 4, 3], [1, 7, 3], [4, 2, 3]]⟩,
  ⟨[1, 1, 1], [[2, 4, 2], [7, 1, 2], [2, 6, 2], [7, 5, 2], [2, 4, 3], [7, 1, 3], [2, 6, 3], [7, 5, 3]]⟩,
  ⟨[1, 1, 1], [[2, 6, 2], [7, 5, 2], [4, 3, 2], [1, 0, 2], [2, 6, 3], [7, 5, 3], [4, 3, 3], [1, 0, 3]]⟩,
  ⟨[1, 1, 1], [[5, 0, 2], [6, 3, 2], [1, 0, 2], [4, 3, 2], [5, 0, 3], [6, 3, 3], [1, 0, 3], [4, 3, 3]]⟩,
  ⟨[1, 1, 1], [[5, 7, 2], [6, 2, 2], [0, 1, 2], [3, 4, 2], [5, 7, 3], [6, 2, 3], [0, 1, 3], [3, 4, 3]]⟩]

/-- `hollowOctagonExtrude` -/
def hollowOctagonExtrudeCode : List (Patch ℕ) := decode (fun n => ([2, 5, 0, 1, 3, 6, 4, 7] : List ℕ).getD n 0) hollowOctagonExtrudeRaw

set_option maxRecDepth 100000 in
set_option maxHeartbeats 4000000 in
theorem hollowOctagonExtrude_code (w h i : K) : hollowOctagonExtrude 0 (1 / 2) 1 w h i = decode (look (armadilloTable w h i)) hollowOctagonExtrudeCode := by
  refine Eq.trans (show _ = decode (look ([(w + (1 / 2)), ((-h) + (1 / 2)), 0, 1, ((-i) + (1 / 2)), (h + (1 / 2)), (i + (1 / 2)), ((-w) + (1 / 2))] : List K)) hollowOctagonExtrudeRaw from rfl) (recode [2, 5, 0, 1, 3, 6, 4, 7] ?_ (by decide +kernel))
  simp only [look, armadilloTable, List.map_cons, List.map_nil, List.getD_cons_zero, List.getD_cons_succ, List.cons.injEq, and_true]
  and_intros <;> first | trivial | rfl | ring

/-- table of values -/
def inverseCross3DTable (s k d m a b c e f g a1 b1 c1 e1 f1 g1 : K) : List K := [0, 1, 1 / 2 - k, 1 / 2 - s, 1 / 2 - c, 1 / 2 - d, 1 / 2 - c1, 1 / 2 - a, 1 / 2 - a1, 1 / 2 - m, 1 / 2 + k, 1 / 2 + c, 1 / 2 + c1, 1 / 2 + a, 1 / 2 + a1, 1 / 2 + m, 1 / 2 + s, 1 / 2 + d, 1 / 2 - b1, 1 / 2 - b, 1 / 2 + b1, 1 / 2 + b, 1 / 2 - e1, 1 / 2 - e, 1 / 2 + e1, 1 / 2 + e, 1 / 2 - f, 1 / 2 + f, 1 / 2 - f1, 1 / 2 + f1, 1 / 2 - g1, 1 / 2 + g1, 1 / 2 - g, 1 / 2 + g]

/-- `inverseCross3D` in the order of the expressions of the source -/
def inverseCross3DRaw : List (Patch ℕ) := [
  ⟨[2, 2, 1], [[0, 0, 1], [2, 0, 1], [3, 0, 3], [0, 2, 1], [4, 4, 1], [5, 4, 5], [0, 6, 6], [4, 7, 7], [8, 8, 8], [0, 0, 9], [2, 0, 9], [3, 0, 10], [0, 2, 9], [4, 4, 9], [5, 4, 11], [0, 6, 12], [4, 7, 13], [8, 8, 14]]⟩,
  ⟨[2, 2, 1], [[10, 0, 3], [15, 0, 1], [16, 0, 1], [11, 4, 5], [17, 4, 1], [16, 2, 1], [14, 8, 8], [17, 18, 18], [16, 19, 19], [10, 0, 10], [15, 0, 9], [16, 0, 9], [11, 4, 11], [17, 4, 9], [16, 2, 9], [14, 8, 14], [17, 18, 20], [16, 19, 21]]⟩,
  ⟨[2, 2, 1], [[0, 12, 6], [4, 13, 7], [8, 14, 8], [0, 15, 1], [4, 17, 1], [22, 17, 22], [0, 16, 1], [2, 16, 1], [23, 16, 23], [0, 12, 12], [4, 13, 13], [8, 14, 14], [0, 15, 9], [4, 17, 9], [22, 17, 24], [0, 16, 9], [2, 16, 9], [23, 16, 25]]⟩,
  ⟨[2, 2, 1], [[14, 14, 8], [17, 20, 18], [16, 21, 19], [24, 17, 22], [17, 17, 1], [16, 15, 1], [25, 16, 23], [15, 16, 1], [16, 16, 1], [14, 14, 14], [17, 20, 20], [16, 21, 21], [24, 17, 24], [17, 17, 9], [16, 15, 9], [25, 16, 25], [15, 16, 9], [16, 16, 9]]⟩,
  ⟨[2, 1, 2], [[0, 1, 0], [2, 1, 0], [26, 26, 0], [0, 9, 0], [2, 9, 0], [26, 27, 0], [0, 1, 2], [4, 1, 4], [28, 28, 4], [0, 9, 2], [4, 9, 4], [28, 29, 4], [0, 6, 6], [4, 7, 7], [8, 8, 8], [0, 12, 6], [4, 13, 7], [8, 14, 8]]⟩,
  ⟨[2, 1, 2], [[27, 26, 0], [15, 1, 0], [16, 1, 0], [27, 27, 0], [15, 9, 0], [16, 9, 0], [29, 28, 4], [17, 1, 4], [16, 1, 2], [29, 29, 4], [17, 9, 4], [16, 9, 2], [14, 8, 8], [17, 18, 18], [16, 19, 19], [14, 14, 8], [17, 20, 18], [16, 21, 19]]⟩,
  ⟨[2, 1, 2], [[0, 6, 12], [4, 7, 13], [8, 8, 14], [0, 12, 12], [4, 13, 13], [8, 14, 14], [0, 1, 15], [4, 1, 17], [30, 30, 17], [0, 9, 15], [4, 9, 17], [30, 31, 17], [0, 1, 16], [2, 1, 16], [32, 32, 16], [0, 9, 16], [2, 9, 16], [32, 33, 16]]⟩,
  ⟨[2, 1, 2], [[14, 8, 14], [17, 18, 20], [16, 19, 21], [14, 14, 14], [17, 20, 20], [16, 21, 21], [31, 30, 17], [17, 1, 17], [16, 1, 15], [31, 31, 17], [17, 9, 17], [16, 9, 15], [33, 32, 16], [15, 1, 16], [16, 1, 16], [33, 33, 16], [15, 9, 16], [16, 9, 16]]⟩,
  ⟨[1, 2, 2], [[1, 0, 0], [9, 0, 0], [1, 2, 0], [9, 2, 0], [26, 26, 0], [27, 26, 0], [1, 0, 2], [9, 0, 2], [1, 4, 4], [9, 4, 4], [28, 28, 4], [29, 28, 4], [3, 0, 3], [10, 0, 3], [5, 4, 5], [11, 4, 5], [8, 8, 8], [14, 8, 8]]⟩,
  ⟨[1, 2, 2], [[26, 27, 0], [27, 27, 0], [1, 15, 0], [9, 15, 0], [1, 16, 0], [9, 16, 0], [28, 29, 4], [29, 29, 4], [1, 17, 4], [9, 17, 4], [1, 16, 2], [9, 16, 2], [8, 14, 8], [14, 14, 8], [22, 17, 22], [24, 17, 22], [23, 16, 23], [25, 16, 23]]⟩,
  ⟨[1, 2, 2], [[3, 0, 10], [10, 0, 10], [5, 4, 11], [11, 4, 11], [8, 8, 14], [14, 8, 14], [1, 0, 15], [9, 0, 15], [1, 4, 17], [9, 4, 17], [30, 30, 17], [31, 30, 17], [1, 0, 16], [9, 0, 16], [1, 2, 16], [9, 2, 16], [32, 32, 16], [33, 32, 16]]⟩,
  ⟨[1, 2, 2], [[8, 14, 14], [14, 14, 14], [22, 17, 24], [24, 17, 24], [23, 16, 25], [25, 16, 25], [30, 31, 17], [31, 31, 17], [1, 17, 17], [9, 17, 17], [1, 16, 15], [9, 16, 15], [32, 33, 16], [33, 33, 16], [1, 15, 16], [9, 15, 16], [1, 16, 16], [9, 16, 16]]⟩,
  ⟨[2, 2, 2], [[0, 0, 0], [2, 0, 0], [1, 0, 0], [0, 2, 0], [2, 2, 0], [1, 2, 0], [0, 1, 0], [2, 1, 0], [26, 26, 0], [0, 0, 2], [2, 0, 2], [1, 0, 2], [0, 2, 2], [4, 4, 4], [1, 4, 4], [0, 1, 2], [4, 1, 4], [28, 28, 4], [0, 0, 1], [2, 0, 1], [3, 0, 3], [0, 2, 1], [4, 4, 1], [5, 4, 5], [0, 6, 6], [4, 7, 7], [8, 8, 8]]⟩,
  ⟨[2, 2, 2], [[9, 0, 0], [15, 0, 0], [16, 0, 0], [9, 2, 0], [15, 2, 0], [16, 2, 0], [27, 26, 0], [15, 1, 0], [16, 1, 0], [9, 0, 2], [15, 0, 2], [16, 0, 2], [9, 4, 4], [17, 4, 4], [16, 2, 2], [29, 28, 4], [17, 1, 4], [16, 1, 2], [10, 0, 3], [15, 0, 1], [16, 0, 1], [11, 4, 5], [17, 4, 1], [16, 2, 1], [14, 8, 8], [17, 18, 18], [16, 19, 19]]⟩,
  ⟨[2, 2, 2], [[0, 9, 0], [2, 9, 0], [26, 27, 0], [0, 15, 0], [2, 15, 0], [1, 15, 0], [0, 16, 0], [2, 16, 0], [1, 16, 0], [0, 9, 2], [4, 9, 4], [28, 29, 4], [0, 15, 2], [4, 17, 4], [1, 17, 4], [0, 16, 2], [2, 16, 2], [1, 16, 2], [0, 12, 6], [4, 13, 7], [8, 14, 8], [0, 15, 1], [4, 17, 1], [22, 17, 22], [0, 16, 1], [2, 16, 1], [23, 16, 23]]⟩,
  ⟨[2, 2, 2], [[27, 27, 0], [15, 9, 0], [16, 9, 0], [9, 15, 0], [15, 15, 0], [16, 15, 0], [9, 16, 0], [15, 16, 0], [16, 16, 0], [29, 29, 4], [17, 9, 4], [16, 9, 2], [9, 17, 4], [17, 17, 4], [16, 15, 2], [9, 16, 2], [15, 16, 2], [16, 16, 2], [14, 14, 8], [17, 20, 18], [16, 21, 19], [24, 17, 22], [17, 17, 1], [16, 15, 1], [25, 16, 23], [15, 16, 1], [16, 16, 1]]⟩,
  ⟨[2, 2, 2], [[0, 0, 9], [2, 0, 9], [3, 0, 10], [0, 2, 9], [4, 4, 9], [5, 4, 11], [0, 6, 12], [4, 7, 13], [8, 8, 14], [0, 0, 15], [2, 0, 15], [1, 0, 15], [0, 2, 15], [4, 4, 17], [1, 4, 17], [0, 1, 15], [4, 1, 17], [30, 30, 17], [0, 0, 16], [2, 0, 16], [1, 0, 16], [0, 2, 16], [2, 2, 16], [1, 2, 16], [0, 1, 16], [2, 1, 16], [32, 32, 16]]⟩,
  ⟨[2, 2, 2], [[10, 0, 10], [15, 0, 9], [16, 0, 9], [11, 4, 11], [17, 4, 9], [16, 2, 9], [14, 8, 14], [17, 18, 20], [16, 19, 21], [9, 0, 15], [15, 0, 15], [16, 0, 15], [9, 4, 17], [17, 4, 17], [16, 2, 15], [31, 30, 17], [17, 1, 17], [16, 1, 15], [9, 0, 16], [15, 0, 16], [16, 0, 16], [9, 2, 16], [15, 2, 16], [16, 2, 16], [33, 32, 16], [15, 1, 16], [16, 1, 16]]⟩,
  ⟨[2, 2, 2], [[0, 12, 12], [4, 13, 13], [8, 14, 14], [0, 15, 9], [4, 17, 9], [22, 17, 24], [0, 16, 9], [2, 16, 9], [23, 16, 25], [0, 9, 15], [4, 9, 17], [30, 31, 17], [0, 15, 15], [4, 17, 17], [1, 17, 17], [0, 16, 15], [2, 16, 15], [1, 16, 15], [0, 9, 16], [2, 9, 16], [32, 33, 16], [0, 15, 16], [2, 15, 16], [1, 15, 16], [0, 16, 16], [2, 16, 16], [1, 16, 16]]⟩,
  ⟨[2, 2, 2], [[14, 14, 14], [17, 20, 20], [16, 21, 21], [24, 17, 24], [17, 17, 9], [16, 15, 9], [25, 16, 25], [15, 16, 9], [16, 16, 9], [31, 31, 17], [17, 9, 17], [16, 9, 15], [9, 17, 17], [17, 17, 17], [16, 15, 15], [9, 16, 15], [15, 16, 15], [16, 16, 15], [33, 33, 16], [15, 9, 16], [16, 9, 16], [9, 15, 16], [15, 15, 16], [16, 15, 16], [9, 16, 16], [15, 16, 16], [16, 16, 16]]⟩]

/-- `inverseCross3D` -/
def inverseCross3DCode : List (Patch ℕ) := decode (fun n => ([0, 2, 3, 4, 5, 6, 7, 8, 9, 10, 11, 12, 13, 14, 15, 16, 1, 17, 18, 19, 20, 21, 22, 23, 24, 25, 26, 27, 28, 29, 30, 31, 32, 33] : List ℕ).getD n 0) inverseCross3DRaw

set_option maxRecDepth 100000 in
set_option maxHeartbeats 4000000 in
theorem inverseCross3D_code (s k d m a b c e f g a1 b1 c1 e1 f1 g1 : K) : inverseCross3D s k d m a b c e f g a1 b1 c1 e1 f1 g1 = decode (look (inverseCross3DTable s k d m a b c e f g a1 b1 c1 e1 f1 g1)) inverseCross3DCode := by
  refine Eq.trans (show _ = decode (look ([((-(1 / 2)) + (1 / 2)), ((-k) + (1 / 2)), ((-s) + (1 / 2)), ((-c) + (1 / 2)), ((-d) + (1 / 2)), ((-c1) + (1 / 2)), ((-a) + (1 / 2)), ((-a1) + (1 / 2)), ((-m) + (1 / 2)), (k + (1 / 2)), (c + (1 / 2)), (c1 + (1 / 2)), (a + (1 / 2)), (a1 + (1 / 2)), (m + (1 / 2)), (s + (1 / 2)), ((1 / 2) + (1 / 2)), (d + (1 / 2)), ((-b1) + (1 / 2)), ((-b) + (1 / 2)), (b1 + (1 / 2)), (b + (1 / 2)), ((-e1) + (1 / 2)), ((-e) + (1 / 2)), (e1 + (1 / 2)), (e + (1 / 2)), ((-f) + (1 / 2)), (f + (1 / 2)), ((-f1) + (1 / 2)), (f1 + (1 / 2)), ((-g1) + (1 / 2)), (g1 + (1 / 2)), ((-g) + (1 / 2)), (g + (1 / 2))] : List K)) inverseCross3DRaw from rfl) (recode [0, 2, 3, 4, 5, 6, 7, 8, 9, 10, 11, 12, 13, 14, 15, 16, 1, 17, 18, 19, 20, 21, 22, 23, 24, 25, 26, 27, 28, 29, 30, 31, 32, 33] ?_ (by decide +kernel))
  simp only [look, inverseCross3DTable, List.map_cons, List.map_nil, List.getD_cons_zero, List.getD_cons_succ, List.cons.injEq, and_true]
  and_intros <;> first | trivial | rfl | ring

/-- `cross3D` in the order of the expressions of the source -/
def cross3DRaw : List (Patch ℕ) := [
  ⟨[1, 1, 1], [[0, 0, 0], [1, 0, 0], [0, 1, 0], [1, 1, 0], [0, 0, 1], [1, 0, 1], [0, 1, 1], [1, 1, 1]]⟩,
  ⟨[2, 1, 1], [[2, 3, 3], [4, 3, 3], [0, 0, 0], [2, 5, 3], [4, 5, 3], [0, 1, 0], [2, 3, 5], [4, 3, 5], [0, 0, 1], [2, 5, 5], [4, 5, 5], [0, 1, 1]]⟩,
  ⟨[2, 1, 1], [[1, 0, 0], [6, 7, 7], [8, 7, 7], [1, 1, 0], [6, 9, 7], [8, 9, 7], [1, 0, 1], [6, 7, 9], [8, 7, 9], [1, 1, 1], [6, 9, 9], [8, 9, 9]]⟩,
  ⟨[1, 2, 1], [[10, 2, 10], [11, 2, 10], [10, 4, 10], [11, 4, 10], [0, 0, 0], [1, 0, 0], [10, 2, 11], [11, 2, 11], [10, 4, 11], [11, 4, 11], [0, 0, 1], [1, 0, 1]]⟩,
  ⟨[1, 2, 1], [[0, 1, 0], [1, 1, 0], [12, 6, 12], [13, 6, 12], [12, 8, 12], [13, 8, 12], [0, 1, 1], [1, 1, 1], [12, 6, 13], [13, 6, 13], [12, 8, 13], [13, 8, 13]]⟩,
  ⟨[1, 1, 2], [[14, 14, 2], [15, 14, 2], [14, 15, 2], [15, 15, 2], [14, 14, 4], [15, 14, 4], [14, 15, 4], [15, 15, 4], [0, 0, 0], [1, 0, 0], [0, 1, 0], [1, 1, 0]]⟩,
  ⟨[1, 1, 2], [[0, 0, 1], [1, 0, 1], [0, 1, 1], [1, 1, 1], [16, 16, 6], [17, 16, 6], [16, 17, 6], [17, 17, 6], [16, 16, 8], [17, 16, 8], [16, 17, 8], [17, 17, 8]]⟩]

/-- `cross3D` -/
def cross3DCode : List (Patch ℕ) := decode (fun n => ([9, 15, 0, 7, 5, 13, 17, 19, 1, 21, 4, 11, 23, 25, 26, 27, 32, 33] : List ℕ).getD n 0) cross3DRaw

set_option maxRecDepth 100000 in
set_option maxHeartbeats 4000000 in
theorem cross3D_code (s k d m a b c e f g a1 b1 c1 e1 f1 g1 : K) : cross3D (1 / 2) m d a b c e f g = decode (look (inverseCross3DTable s k d m a b c e f g a1 b1 c1 e1 f1 g1)) cross3DCode := by
  refine Eq.trans (show _ = decode (look ([((-m) + (1 / 2)), (m + (1 / 2)), ((-(1 / 2)) + (1 / 2)), ((-a) + (1 / 2)), ((-d) + (1 / 2)), (a + (1 / 2)), (d + (1 / 2)), ((-b) + (1 / 2)), ((1 / 2) + (1 / 2)), (b + (1 / 2)), ((-c) + (1 / 2)), (c + (1 / 2)), ((-e) + (1 / 2)), (e + (1 / 2)), ((-f) + (1 / 2)), (f + (1 / 2)), ((-g) + (1 / 2)), (g + (1 / 2))] : List K)) cross3DRaw from rfl) (recode [9, 15, 0, 7, 5, 13, 17, 19, 1, 21, 4, 11, 23, 25, 26, 27, 32, 33] ?_ (by decide +kernel))
  simp only [look, inverseCross3DTable, List.map_cons, List.map_nil, List.getD_cons_zero, List.getD_cons_succ, List.cons.injEq, and_true]
  and_intros <;> first | trivial | rfl | ring

/-- table of values -/
def inverseCloseTable (s k f f1 t t1 r q b : K) : List K := [0, 1, 1 / 2 - r, f, 1 / 2 - q, 1 / 2 + r, 1 / 2 - k, t, 1 / 2 - s, 1 / 2 - b, 1 / 2 + k, 1 / 2 + b, 1 / 2 + q, 1 / 2 + s, t1, f1]

/-- `inverseCross3DCloseZMin` in the order of the expressions of the source -/
def inverseCross3DCloseZMinRaw : List (Patch ℕ) := [
  ⟨[2, 1, 2], [[0, 1, 2], [3, 1, 2], [1, 1, 2], [0, 4, 2], [3, 4, 2], [1, 4, 2], [0, 5, 6], [7, 5, 6], [8, 8, 6], [0, 9, 6], [7, 9, 6], [8, 10, 6], [0, 5, 11], [7, 5, 11], [8, 8, 11], [0, 9, 11], [7, 9, 11], [8, 10, 11]]⟩,
  ⟨[2, 1, 2], [[4, 1, 2], [12, 1, 2], [13, 1, 2], [4, 4, 2], [12, 4, 2], [13, 4, 2], [10, 8, 6], [14, 5, 6], [13, 5, 6], [10, 10, 6], [14, 9, 6], [13, 9, 6], [10, 8, 11], [14, 5, 11], [13, 5, 11], [10, 10, 11], [14, 9, 11], [13, 9, 11]]⟩,
  ⟨[1, 2, 2], [[1, 0, 2], [4, 0, 2], [1, 3, 2], [4, 3, 2], [1, 1, 2], [4, 1, 2], [5, 0, 6], [9, 0, 6], [5, 7, 6], [9, 7, 6], [8, 8, 6], [10, 8, 6], [5, 0, 11], [9, 0, 11], [5, 7, 11], [9, 7, 11], [8, 8, 11], [10, 8, 11]]⟩,
  ⟨[1, 2, 2], [[1, 4, 2], [4, 4, 2], [1, 12, 2], [4, 12, 2], [1, 13, 2], [4, 13, 2], [8, 10, 6], [10, 10, 6], [5, 14, 6], [9, 14, 6], [5, 13, 6], [9, 13, 6], [8, 10, 11], [10, 10, 11], [5, 14, 11], [9, 14, 11], [5, 13, 11], [9, 13, 11]]⟩,
  ⟨[2, 2, 2], [[0, 0, 2], [3, 0, 2], [1, 0, 2], [0, 3, 2], [3, 3, 2], [1, 3, 2], [0, 1, 2], [3, 1, 2], [1, 1, 2], [0, 0, 6], [7, 0, 6], [5, 0, 6], [0, 7, 6], [7, 7, 6], [5, 7, 6], [0, 5, 6], [7, 5, 6], [8, 8, 6], [0, 0, 11], [7, 0, 11], [5, 0, 11], [0, 7, 11], [7, 7, 11], [5, 7, 11], [0, 5, 11], [7, 5, 11], [8, 8, 11]]⟩,
  ⟨[2, 2, 2], [[0, 4, 2], [3, 4, 2], [1, 4, 2], [0, 12, 2], [3, 12, 2], [1, 12, 2], [0, 13, 2], [3, 13, 2], [1, 13, 2], [0, 9, 6], [7, 9, 6], [8, 10, 6], [0, 14, 6], [7, 14, 6], [5, 14, 6], [0, 13, 6], [7, 13, 6], [5, 13, 6], [0, 9, 11], [7, 9, 11], [8, 10, 11], [0, 14, 11], [7, 14, 11], [5, 14, 11], [0, 13, 11], [7, 13, 11], [5, 13, 11]]⟩,
  ⟨[2, 2, 2], [[4, 0, 2], [12, 0, 2], [13, 0, 2], [4, 3, 2], [12, 3, 2], [13, 3, 2], [4, 1, 2], [12, 1, 2], [13, 1, 2], [9, 0, 6], [14, 0, 6], [13, 0, 6], [9, 7, 6], [14, 7, 6], [13, 7, 6], [10, 8, 6], [14, 5, 6], [13, 5, 6], [9, 0, 11], [14, 0, 11], [13, 0, 11], [9, 7, 11], [14, 7, 11], [13, 7, 11], [10, 8, 11], [14, 5, 11], [13, 5, 11]]⟩,
  ⟨[2, 2, 2], [[4, 4, 2], [12, 4, 2], [13, 4, 2], [4, 12, 2], [12, 12, 2], [13, 12, 2], [4, 13, 2], [12, 13, 2], [13, 13, 2], [10, 10, 6], [14, 9, 6], [13, 9, 6], [9, 14, 6], [14, 14, 6], [13, 14, 6], [9, 13, 6], [14, 13, 6], [13, 13, 6], [10, 10, 11], [14, 9, 11], [13, 9, 11], [9, 14, 11], [14, 14, 11], [13, 14, 11], [9, 13, 11], [14, 13, 11], [13, 13, 11]]⟩]

/-- `inverseCross3DCloseZMin` -/
def inverseCross3DCloseZMinCode : List (Patch ℕ) := decode (fun n => ([0, 2, 3, 4, 5, 6, 7, 8, 9, 10, 11, 1, 12, 1, 13] : List ℕ).getD n 0) inverseCross3DCloseZMinRaw

set_option maxRecDepth 100000 in
set_option maxHeartbeats 4000000 in
theorem inverseCross3DCloseZMin_code (s k f f1 t t1 r q b : K) : inverseCross3DCloseZMin s k f f1 t t1 r q b = decode (look (inverseCloseTable s k f f1 t t1 r q b)) inverseCross3DCloseZMinCode := by
  refine Eq.trans (show _ = decode (look ([((-(1 / 2)) + (1 / 2)), ((-r) + (1 / 2)), (f + 0), ((-q) + (1 / 2)), (r + (1 / 2)), ((-k) + (1 / 2)), (t + 0), ((-s) + (1 / 2)), ((-b) + (1 / 2)), (k + (1 / 2)), (b + (1 / 2)), (1 + 0), (q + (1 / 2)), ((1 / 2) + (1 / 2)), (s + (1 / 2))] : List K)) inverseCross3DCloseZMinRaw from rfl) (recode [0, 2, 3, 4, 5, 6, 7, 8, 9, 10, 11, 1, 12, 1, 13] ?_ (by decide +kernel))
  simp only [look, inverseCloseTable, List.map_cons, List.map_nil, List.getD_cons_zero, List.getD_cons_succ, List.cons.injEq, and_true]
  and_intros <;> first | trivial | rfl | ring

/-- `inverseCross3DCloseZMax` in the order of the expressions of the source -/
def inverseCross3DCloseZMaxRaw : List (Patch ℕ) := [
  ⟨[2, 1, 2], [[0, 1, 2], [3, 1, 2], [4, 4, 2], [0, 5, 2], [3, 5, 2], [4, 6, 2], [0, 1, 7], [3, 1, 7], [4, 4, 7], [0, 5, 7], [3, 5, 7], [4, 6, 7], [0, 8, 9], [10, 8, 9], [8, 8, 9], [0, 11, 9], [10, 11, 9], [8, 11, 9]]⟩,
  ⟨[2, 1, 2], [[6, 4, 2], [12, 1, 2], [13, 1, 2], [6, 6, 2], [12, 5, 2], [13, 5, 2], [6, 4, 7], [12, 1, 7], [13, 1, 7], [6, 6, 7], [12, 5, 7], [13, 5, 7], [11, 8, 9], [14, 8, 9], [13, 8, 9], [11, 11, 9], [14, 11, 9], [13, 11, 9]]⟩,
  ⟨[1, 2, 2], [[1, 0, 2], [5, 0, 2], [1, 3, 2], [5, 3, 2], [4, 4, 2], [6, 4, 2], [1, 0, 7], [5, 0, 7], [1, 3, 7], [5, 3, 7], [4, 4, 7], [6, 4, 7], [8, 0, 9], [11, 0, 9], [8, 10, 9], [11, 10, 9], [8, 8, 9], [11, 8, 9]]⟩,
  ⟨[1, 2, 2], [[4, 6, 2], [6, 6, 2], [1, 12, 2], [5, 12, 2], [1, 13, 2], [5, 13, 2], [4, 6, 7], [6, 6, 7], [1, 12, 7], [5, 12, 7], [1, 13, 7], [5, 13, 7], [8, 11, 9], [11, 11, 9], [8, 14, 9], [11, 14, 9], [8, 13, 9], [11, 13, 9]]⟩,
  ⟨[2, 2, 2], [[0, 0, 2], [3, 0, 2], [1, 0, 2], [0, 3, 2], [3, 3, 2], [1, 3, 2], [0, 1, 2], [3, 1, 2], [4, 4, 2], [0, 0, 7], [3, 0, 7], [1, 0, 7], [0, 3, 7], [3, 3, 7], [1, 3, 7], [0, 1, 7], [3, 1, 7], [4, 4, 7], [0, 0, 9], [10, 0, 9], [8, 0, 9], [0, 10, 9], [10, 10, 9], [8, 10, 9], [0, 8, 9], [10, 8, 9], [8, 8, 9]]⟩,
  ⟨[2, 2, 2], [[6, 6, 2], [12, 5, 2], [13, 5, 2], [5, 12, 2], [12, 12, 2], [13, 12, 2], [5, 13, 2], [12, 13, 2], [13, 13, 2], [6, 6, 7], [12, 5, 7], [13, 5, 7], [5, 12, 7], [12, 12, 7], [13, 12, 7], [5, 13, 7], [12, 13, 7], [13, 13, 7], [11, 11, 9], [14, 11, 9], [13, 11, 9], [11, 14, 9], [14, 14, 9], [13, 14, 9], [11, 13, 9], [14, 13, 9], [13, 13, 9]]⟩,
  ⟨[2, 2, 2], [[5, 0, 2], [12, 0, 2], [13, 0, 2], [5, 3, 2], [12, 3, 2], [13, 3, 2], [6, 4, 2], [12, 1, 2], [13, 1, 2], [5, 0, 7], [12, 0, 7], [13, 0, 7], [5, 3, 7], [12, 3, 7], [13, 3, 7], [6, 4, 7], [12, 1, 7], [13, 1, 7], [11, 0, 9], [14, 0, 9], [13, 0, 9], [11, 10, 9], [14, 10, 9], [13, 10, 9], [11, 8, 9], [14, 8, 9], [13, 8, 9]]⟩,
  ⟨[2, 2, 2], [[0, 5, 2], [3, 5, 2], [4, 6, 2], [0, 12, 2], [3, 12, 2], [1, 12, 2], [0, 13, 2], [3, 13, 2], [1, 13, 2], [0, 5, 7], [3, 5, 7], [4, 6, 7], [0, 12, 7], [3, 12, 7], [1, 12, 7], [0, 13, 7], [3, 13, 7], [1, 13, 7], [0, 11, 9], [10, 11, 9], [8, 11, 9], [0, 14, 9], [10, 14, 9], [8, 14, 9], [0, 13, 9], [10, 13, 9], [8, 13, 9]]⟩]

/-- `inverseCross3DCloseZMax` -/
def inverseCross3DCloseZMaxCode : List (Patch ℕ) := decode (fun n => ([0, 6, 0, 8, 9, 10, 11, 14, 2, 15, 4, 5, 13, 1, 12] : List ℕ).getD n 0) inverseCross3DCloseZMaxRaw

set_option maxRecDepth 100000 in
set_option maxHeartbeats 4000000 in
theorem inverseCross3DCloseZMax_code (s k f f1 t t1 r q b : K) : inverseCross3DCloseZMax s k f f1 t t1 r q b = decode (look (inverseCloseTable s k f f1 t t1 r q b)) inverseCross3DCloseZMaxCode := by
  refine Eq.trans (show _ = decode (look ([((-(1 / 2)) + (1 / 2)), ((-k) + (1 / 2)), (0 + 0), ((-s) + (1 / 2)), ((-b) + (1 / 2)), (k + (1 / 2)), (b + (1 / 2)), (t1 + 0), ((-r) + (1 / 2)), (f1 + 0), ((-q) + (1 / 2)), (r + (1 / 2)), (s + (1 / 2)), ((1 / 2) + (1 / 2)), (q + (1 / 2))] : List K)) inverseCross3DCloseZMaxRaw from rfl) (recode [0, 6, 0, 8, 9, 10, 11, 14, 2, 15, 4, 5, 13, 1, 12] ?_ (by decide +kernel))
  simp only [look, inverseCloseTable, List.map_cons, List.map_nil, List.getD_cons_zero, List.getD_cons_succ, List.cons.injEq, and_true]
  and_intros <;> first | trivial | rfl | ring

end

end Splinepy.Tiles
