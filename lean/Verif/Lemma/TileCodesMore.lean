import Verif.Lemma.TileCodes

/-!
More tiles of `Model/TileShapes.lean`, as tiles of numbers and tables of values (generated from this file; the theorems check that the tables are right), and trees of common faces.
-/

set_option linter.unusedSimpArgs false
set_option linter.unusedSectionVars false

namespace Splinepy.Tiles

section
variable {K : Type} [Field K] [LinearOrder K] [IsStrictOrderedRing K]

/-- table of values -/
def cross2DTable (m d a b c e : K) : List K := [0, 1, 1 / 2 - m, 1 / 2 + m, 1 / 2 - a, 1 / 2 - d, 1 / 2 + a, 1 / 2 + d, 1 / 2 - b, 1 / 2 + b, 1 / 2 - c, 1 / 2 + c, 1 / 2 - e, 1 / 2 + e]

/-- `cross2D` in the order of the expressions of the source -/
def cross2DRaw : List (Patch ℕ) := [
  ⟨[1, 1], [[0, 0], [1, 0], [0, 1], [1, 1]]⟩,
  ⟨[2, 1], [[2, 3], [4, 3], [0, 0], [2, 5], [4, 5], [0, 1]]⟩,
  ⟨[2, 1], [[1, 0], [6, 7], [8, 7], [1, 1], [6, 9], [8, 9]]⟩,
  ⟨[1, 2], [[10, 2], [11, 2], [10, 4], [11, 4], [0, 0], [1, 0]]⟩,
  ⟨[1, 2], [[0, 1], [1, 1], [12, 6], [13, 6], [12, 8], [13, 8]]⟩]

/-- `cross2D` -/
def cross2DCode : List (Patch ℕ) := decode (fun n => ([2, 3, 0, 4, 5, 6, 7, 8, 1, 9, 10, 11, 12, 13] : List ℕ).getD n 0) cross2DRaw

set_option maxRecDepth 100000 in
set_option maxHeartbeats 4000000 in
theorem cross2D_code (m d a b c e : K) : cross2D (1 / 2) m d a b c e = decode (look (cross2DTable m d a b c e)) cross2DCode := by
  refine Eq.trans (show _ = decode (look ([((-m) + (1 / 2)), (m + (1 / 2)), ((-(1 / 2)) + (1 / 2)), ((-a) + (1 / 2)), ((-d) + (1 / 2)), (a + (1 / 2)), (d + (1 / 2)), ((-b) + (1 / 2)), ((1 / 2) + (1 / 2)), (b + (1 / 2)), ((-c) + (1 / 2)), (c + (1 / 2)), ((-e) + (1 / 2)), (e + (1 / 2))] : List K)) cross2DRaw from rfl) (recode [2, 3, 0, 4, 5, 6, 7, 8, 1, 9, 10, 11, 12, 13] ?_ (by decide +kernel))
  simp only [look, cross2DTable, List.map_cons, List.map_nil, List.getD_cons_zero, List.getD_cons_succ, List.cons.injEq, and_true]
  all_goals (and_intros <;> first | trivial | rfl | ring)

/-- table of values -/
def cross2DCloseTable (f b t s r : K) : List K := [0, 1, f, b, 1 - b, t, 1 / 2 - r, 1 / 2 + r, 1 - f, s]

/-- `cross2DCloseXMin` in the order of the expressions of the source -/
def cross2DCloseXMinRaw : List (Patch ℕ) := [
  ⟨[1, 1], [[0, 0], [1, 0], [0, 2], [1, 2]]⟩,
  ⟨[1, 1], [[0, 2], [1, 2], [0, 3], [1, 3]]⟩,
  ⟨[1, 1], [[0, 3], [1, 3], [0, 4], [1, 4]]⟩,
  ⟨[2, 1], [[1, 2], [5, 6], [4, 6], [1, 3], [5, 7], [4, 7]]⟩]

/-- `cross2DCloseXMin` -/
def cross2DCloseXMinCode : List (Patch ℕ) := decode (fun n => ([0, 2, 3, 4, 1, 5, 6, 7] : List ℕ).getD n 0) cross2DCloseXMinRaw

set_option maxRecDepth 100000 in
set_option maxHeartbeats 4000000 in
theorem cross2DCloseXMin_code (f b t s r : K) : cross2DCloseXMin 0 (1 / 2) 1 f b (1 - b) (1 - f) t s r = decode (look (cross2DCloseTable f b t s r)) cross2DCloseXMinCode := by
  refine Eq.trans (show _ = decode (look ([0, f, b, (1 - b), 1, t, ((1 / 2) - r), ((1 / 2) + r)] : List K)) cross2DCloseXMinRaw from rfl) (recode [0, 2, 3, 4, 1, 5, 6, 7] ?_ (by decide +kernel))
  simp only [look, cross2DCloseTable, List.map_cons, List.map_nil, List.getD_cons_zero, List.getD_cons_succ, List.cons.injEq, and_true]
  all_goals (and_intros <;> first | trivial | rfl | ring)

/-- `cross2DCloseXMax` in the order of the expressions of the source -/
def cross2DCloseXMaxRaw : List (Patch ℕ) := [
  ⟨[1, 1], [[0, 1], [2, 1], [0, 3], [2, 3]]⟩,
  ⟨[1, 1], [[0, 3], [2, 3], [0, 4], [2, 4]]⟩,
  ⟨[1, 1], [[0, 4], [2, 4], [0, 2], [2, 2]]⟩,
  ⟨[2, 1], [[1, 5], [6, 5], [0, 3], [1, 7], [6, 7], [0, 4]]⟩]

/-- `cross2DCloseXMax` -/
def cross2DCloseXMaxCode : List (Patch ℕ) := decode (fun n => ([8, 0, 1, 3, 4, 6, 9, 7] : List ℕ).getD n 0) cross2DCloseXMaxRaw

set_option maxRecDepth 100000 in
set_option maxHeartbeats 4000000 in
theorem cross2DCloseXMax_code (f b t s r : K) : cross2DCloseXMax 0 (1 / 2) 1 f b (1 - b) (1 - f) t s r = decode (look (cross2DCloseTable f b t s r)) cross2DCloseXMaxCode := by
  refine Eq.trans (show _ = decode (look ([(1 - f), 0, 1, b, (1 - b), ((1 / 2) - r), s, ((1 / 2) + r)] : List K)) cross2DCloseXMaxRaw from rfl) (recode [8, 0, 1, 3, 4, 6, 9, 7] ?_ (by decide +kernel))
  simp only [look, cross2DCloseTable, List.map_cons, List.map_nil, List.getD_cons_zero, List.getD_cons_succ, List.cons.injEq, and_true]
  all_goals (and_intros <;> first | trivial | rfl | ring)

/-- `cross2DCloseYMin` in the order of the expressions of the source -/
def cross2DCloseYMinRaw : List (Patch ℕ) := [
  ⟨[1, 1], [[0, 0], [1, 0], [0, 2], [1, 2]]⟩,
  ⟨[1, 1], [[1, 0], [3, 0], [1, 2], [3, 2]]⟩,
  ⟨[1, 1], [[3, 0], [4, 0], [3, 2], [4, 2]]⟩,
  ⟨[1, 2], [[1, 2], [3, 2], [5, 6], [7, 6], [5, 4], [7, 4]]⟩]

/-- `cross2DCloseYMin` -/
def cross2DCloseYMinCode : List (Patch ℕ) := decode (fun n => ([0, 3, 2, 4, 1, 6, 5, 7] : List ℕ).getD n 0) cross2DCloseYMinRaw

set_option maxRecDepth 100000 in
set_option maxHeartbeats 4000000 in
theorem cross2DCloseYMin_code (f b t s r : K) : cross2DCloseYMin 0 (1 / 2) 1 f b (1 - b) (1 - f) t s r = decode (look (cross2DCloseTable f b t s r)) cross2DCloseYMinCode := by
  refine Eq.trans (show _ = decode (look ([0, b, f, (1 - b), 1, ((1 / 2) - r), t, ((1 / 2) + r)] : List K)) cross2DCloseYMinRaw from rfl) (recode [0, 3, 2, 4, 1, 6, 5, 7] ?_ (by decide +kernel))
  simp only [look, cross2DCloseTable, List.map_cons, List.map_nil, List.getD_cons_zero, List.getD_cons_succ, List.cons.injEq, and_true]
  all_goals (and_intros <;> first | trivial | rfl | ring)

/-- `cross2DCloseYMax` in the order of the expressions of the source -/
def cross2DCloseYMaxRaw : List (Patch ℕ) := [
  ⟨[1, 1], [[0, 1], [2, 1], [0, 3], [2, 3]]⟩,
  ⟨[1, 1], [[2, 1], [4, 1], [2, 3], [4, 3]]⟩,
  ⟨[1, 1], [[4, 1], [3, 1], [4, 3], [3, 3]]⟩,
  ⟨[1, 2], [[5, 0], [6, 0], [5, 7], [6, 7], [2, 1], [4, 1]]⟩]

/-- `cross2DCloseYMax` -/
def cross2DCloseYMaxCode : List (Patch ℕ) := decode (fun n => ([0, 8, 3, 1, 4, 6, 7, 9] : List ℕ).getD n 0) cross2DCloseYMaxRaw

set_option maxRecDepth 100000 in
set_option maxHeartbeats 4000000 in
theorem cross2DCloseYMax_code (f b t s r : K) : cross2DCloseYMax 0 (1 / 2) 1 f b (1 - b) (1 - f) t s r = decode (look (cross2DCloseTable f b t s r)) cross2DCloseYMaxCode := by
  refine Eq.trans (show _ = decode (look ([0, (1 - f), b, 1, (1 - b), ((1 / 2) - r), ((1 / 2) + r), s] : List K)) cross2DCloseYMaxRaw from rfl) (recode [0, 8, 3, 1, 4, 6, 7, 9] ?_ (by decide +kernel))
  simp only [look, cross2DCloseTable, List.map_cons, List.map_nil, List.getD_cons_zero, List.getD_cons_succ, List.cons.injEq, and_true]
  all_goals (and_intros <;> first | trivial | rfl | ring)

/-- table of values -/
def doubleLatticeTable (a01 a02 a03 a04 a05 a06 a07 a08 a09 a10 a11 : K) : List K := [0, 1, a01, a02, a04, a03, a08, a09, a11, a10, a05, a06, a07]

/-- `doubleLattice` in the order of the expressions of the source -/
def doubleLatticeRaw : List (Patch ℕ) := [
  ⟨[1, 1], [[0, 0], [1, 1], [0, 2], [1, 3]]⟩,
  ⟨[1, 1], [[0, 0], [2, 0], [1, 1], [3, 1]]⟩,
  ⟨[1, 1], [[2, 0], [4, 0], [3, 1], [5, 1]]⟩,
  ⟨[1, 1], [[4, 0], [6, 0], [5, 1], [7, 1]]⟩,
  ⟨[1, 1], [[7, 1], [6, 0], [7, 3], [6, 2]]⟩,
  ⟨[1, 1], [[6, 2], [6, 4], [7, 3], [7, 5]]⟩,
  ⟨[1, 1], [[7, 5], [6, 4], [7, 7], [6, 6]]⟩,
  ⟨[1, 1], [[5, 7], [7, 7], [4, 6], [6, 6]]⟩,
  ⟨[1, 1], [[3, 7], [5, 7], [2, 6], [4, 6]]⟩,
  ⟨[1, 1], [[1, 7], [3, 7], [0, 6], [2, 6]]⟩,
  ⟨[1, 1], [[0, 4], [1, 5], [0, 6], [1, 7]]⟩,
  ⟨[1, 1], [[0, 2], [1, 3], [0, 4], [1, 5]]⟩,
  ⟨[1, 1], [[1, 5], [8, 9], [1, 7], [9, 9]]⟩,
  ⟨[1, 1], [[1, 7], [9, 9], [3, 7], [9, 10]]⟩,
  ⟨[1, 1], [[1, 1], [9, 9], [1, 3], [8, 9]]⟩,
  ⟨[1, 1], [[1, 1], [3, 1], [9, 9], [9, 8]]⟩,
  ⟨[1, 1], [[5, 1], [7, 1], [9, 8], [9, 9]]⟩,
  ⟨[1, 1], [[9, 9], [7, 1], [10, 9], [7, 3]]⟩,
  ⟨[1, 1], [[9, 9], [10, 9], [7, 7], [7, 5]]⟩,
  ⟨[1, 1], [[9, 9], [7, 7], [9, 10], [5, 7]]⟩]

/-- `doubleLattice` -/
def doubleLatticeCode : List (Patch ℕ) := decode (fun n => ([2, 3, 4, 5, 6, 7, 8, 9, 10, 11, 12] : List ℕ).getD n 0) doubleLatticeRaw

set_option maxRecDepth 100000 in
set_option maxHeartbeats 4000000 in
theorem doubleLattice_code (a01 a02 a03 a04 a05 a06 a07 a08 a09 a10 a11 : K) : doubleLattice a01 a02 a03 a04 a05 a06 a07 a08 a09 a10 a11 = decode (look (doubleLatticeTable a01 a02 a03 a04 a05 a06 a07 a08 a09 a10 a11)) doubleLatticeCode := by
  refine Eq.trans (show _ = decode (look ([a01, a02, a04, a03, a08, a09, a11, a10, a05, a06, a07] : List K)) doubleLatticeRaw from rfl) (recode [2, 3, 4, 5, 6, 7, 8, 9, 10, 11, 12] ?_ (by decide +kernel))
  simp only [look, doubleLatticeTable, List.map_cons, List.map_nil, List.getD_cons_zero, List.getD_cons_succ, List.cons.injEq, and_true]
  all_goals (and_intros <;> first | trivial | rfl | ring)

/-- table of values -/
def hollowOctagonTable (w h i : K) : List K := [0, 1, 1 / 2 + w, 1 / 2 - h, 1 / 2 - i, 1 / 2 + h, 1 / 2 + i, 1 / 2 - w]

/-- `hollowOctagon` in the order of the expressions of the source -/
def hollowOctagonRaw : List (Patch ℕ) := [
  ⟨[1, 1], [[0, 1], [2, 3], [0, 4], [2, 5]]⟩,
  ⟨[1, 1], [[0, 4], [2, 5], [4, 0], [5, 2]]⟩,
  ⟨[1, 1], [[5, 6], [4, 7], [3, 6], [1, 7]]⟩,
  ⟨[1, 1], [[7, 1], [6, 3], [1, 7], [3, 6]]⟩,
  ⟨[1, 1], [[6, 3], [7, 1], [6, 5], [7, 4]]⟩,
  ⟨[1, 1], [[6, 5], [7, 4], [3, 2], [1, 0]]⟩,
  ⟨[1, 1], [[4, 0], [5, 2], [1, 0], [3, 2]]⟩,
  ⟨[1, 1], [[4, 7], [5, 6], [0, 1], [2, 3]]⟩]

/-- `hollowOctagon` -/
def hollowOctagonCode : List (Patch ℕ) := decode (fun n => ([2, 3, 1, 4, 5, 6, 0, 7] : List ℕ).getD n 0) hollowOctagonRaw

set_option maxRecDepth 100000 in
set_option maxHeartbeats 4000000 in
theorem hollowOctagon_code (w h i : K) : hollowOctagon 0 (1 / 2) 1 w h i = decode (look (hollowOctagonTable w h i)) hollowOctagonCode := by
  refine Eq.trans (show _ = decode (look ([(w + (1 / 2)), ((-h) + (1 / 2)), 1, ((-i) + (1 / 2)), (h + (1 / 2)), (i + (1 / 2)), 0, ((-w) + (1 / 2))] : List K)) hollowOctagonRaw from rfl) (recode [2, 3, 1, 4, 5, 6, 0, 7] ?_ (by decide +kernel))
  simp only [look, hollowOctagonTable, List.map_cons, List.map_nil, List.getD_cons_zero, List.getD_cons_succ, List.cons.injEq, and_true]
  all_goals (and_intros <;> first | trivial | rfl | ring)

/-- `hollowOctagonCloseXMin` in the order of the expressions of the source -/
def hollowOctagonCloseXMinRaw : List (Patch ℕ) := [
  ⟨[1, 1], [[0, 1], [2, 3], [0, 4], [2, 5]]⟩,
  ⟨[1, 1], [[0, 4], [2, 5], [4, 0], [5, 2]]⟩,
  ⟨[1, 1], [[5, 6], [4, 7], [3, 6], [1, 7]]⟩,
  ⟨[1, 1], [[7, 1], [6, 6], [1, 7], [3, 6]]⟩,
  ⟨[1, 1], [[6, 6], [7, 1], [6, 2], [7, 4]]⟩,
  ⟨[1, 1], [[6, 2], [7, 4], [3, 2], [1, 0]]⟩,
  ⟨[1, 1], [[4, 0], [5, 2], [1, 0], [3, 2]]⟩,
  ⟨[1, 1], [[4, 7], [5, 6], [0, 1], [2, 3]]⟩]

/-- `hollowOctagonCloseXMin` -/
def hollowOctagonCloseXMinCode : List (Patch ℕ) := decode (fun n => ([2, 3, 1, 4, 5, 6, 0, 7] : List ℕ).getD n 0) hollowOctagonCloseXMinRaw

set_option maxRecDepth 100000 in
set_option maxHeartbeats 4000000 in
theorem hollowOctagonCloseXMin_code (w h i : K) : hollowOctagonCloseXMin 0 (1 / 2) 1 w h i = decode (look (hollowOctagonTable w h i)) hollowOctagonCloseXMinCode := by
  refine Eq.trans (show _ = decode (look ([(w + (1 / 2)), ((-h) + (1 / 2)), 1, ((-i) + (1 / 2)), (h + (1 / 2)), (i + (1 / 2)), 0, ((-w) + (1 / 2))] : List K)) hollowOctagonCloseXMinRaw from rfl) (recode [2, 3, 1, 4, 5, 6, 0, 7] ?_ (by decide +kernel))
  simp only [look, hollowOctagonTable, List.map_cons, List.map_nil, List.getD_cons_zero, List.getD_cons_succ, List.cons.injEq, and_true]
  all_goals (and_intros <;> first | trivial | rfl | ring)

/-- `hollowOctagonCloseXMax` in the order of the expressions of the source -/
def hollowOctagonCloseXMaxRaw : List (Patch ℕ) := [
  ⟨[1, 1], [[0, 1], [2, 3], [0, 4], [2, 2]]⟩,
  ⟨[1, 1], [[0, 4], [2, 2], [4, 0], [5, 2]]⟩,
  ⟨[1, 1], [[5, 3], [4, 6], [7, 3], [1, 6]]⟩,
  ⟨[1, 1], [[6, 1], [3, 7], [1, 6], [7, 3]]⟩,
  ⟨[1, 1], [[3, 7], [6, 1], [3, 5], [6, 4]]⟩,
  ⟨[1, 1], [[3, 5], [6, 4], [7, 2], [1, 0]]⟩,
  ⟨[1, 1], [[4, 0], [5, 2], [1, 0], [7, 2]]⟩,
  ⟨[1, 1], [[4, 6], [5, 3], [0, 1], [2, 3]]⟩]

/-- `hollowOctagonCloseXMax` -/
def hollowOctagonCloseXMaxCode : List (Patch ℕ) := decode (fun n => ([2, 3, 1, 0, 5, 6, 7, 4] : List ℕ).getD n 0) hollowOctagonCloseXMaxRaw

set_option maxRecDepth 100000 in
set_option maxHeartbeats 4000000 in
theorem hollowOctagonCloseXMax_code (w h i : K) : hollowOctagonCloseXMax 0 (1 / 2) 1 w h i = decode (look (hollowOctagonTable w h i)) hollowOctagonCloseXMaxCode := by
  refine Eq.trans (show _ = decode (look ([(w + (1 / 2)), ((-h) + (1 / 2)), 1, 0, (h + (1 / 2)), (i + (1 / 2)), ((-w) + (1 / 2)), ((-i) + (1 / 2))] : List K)) hollowOctagonCloseXMaxRaw from rfl) (recode [2, 3, 1, 0, 5, 6, 7, 4] ?_ (by decide +kernel))
  simp only [look, hollowOctagonTable, List.map_cons, List.map_nil, List.getD_cons_zero, List.getD_cons_succ, List.cons.injEq, and_true]
  all_goals (and_intros <;> first | trivial | rfl | ring)

/-- `hollowOctagonCloseYMin` in the order of the expressions of the source -/
def hollowOctagonCloseYMinRaw : List (Patch ℕ) := [
  ⟨[1, 1], [[0, 1], [2, 3], [0, 4], [2, 5]]⟩,
  ⟨[1, 1], [[0, 4], [2, 5], [4, 0], [5, 2]]⟩,
  ⟨[1, 1], [[2, 6], [4, 7], [6, 6], [1, 7]]⟩,
  ⟨[1, 1], [[7, 1], [6, 3], [1, 7], [6, 6]]⟩,
  ⟨[1, 1], [[6, 3], [7, 1], [6, 5], [7, 4]]⟩,
  ⟨[1, 1], [[6, 5], [7, 4], [3, 2], [1, 0]]⟩,
  ⟨[1, 1], [[4, 0], [5, 2], [1, 0], [3, 2]]⟩,
  ⟨[1, 1], [[4, 7], [2, 6], [0, 1], [2, 3]]⟩]

/-- `hollowOctagonCloseYMin` -/
def hollowOctagonCloseYMinCode : List (Patch ℕ) := decode (fun n => ([2, 3, 1, 4, 5, 6, 0, 7] : List ℕ).getD n 0) hollowOctagonCloseYMinRaw

set_option maxRecDepth 100000 in
set_option maxHeartbeats 4000000 in
theorem hollowOctagonCloseYMin_code (w h i : K) : hollowOctagonCloseYMin 0 (1 / 2) 1 w h i = decode (look (hollowOctagonTable w h i)) hollowOctagonCloseYMinCode := by
  refine Eq.trans (show _ = decode (look ([(w + (1 / 2)), ((-h) + (1 / 2)), 1, ((-i) + (1 / 2)), (h + (1 / 2)), (i + (1 / 2)), 0, ((-w) + (1 / 2))] : List K)) hollowOctagonCloseYMinRaw from rfl) (recode [2, 3, 1, 4, 5, 6, 0, 7] ?_ (by decide +kernel))
  simp only [look, hollowOctagonTable, List.map_cons, List.map_nil, List.getD_cons_zero, List.getD_cons_succ, List.cons.injEq, and_true]
  all_goals (and_intros <;> first | trivial | rfl | ring)

/-- `hollowOctagonCloseYMax` in the order of the expressions of the source -/
def hollowOctagonCloseYMaxRaw : List (Patch ℕ) := [
  ⟨[1, 1], [[0, 1], [2, 3], [0, 4], [2, 5]]⟩,
  ⟨[1, 1], [[0, 4], [2, 5], [4, 0], [2, 2]]⟩,
  ⟨[1, 1], [[5, 6], [4, 7], [3, 6], [1, 7]]⟩,
  ⟨[1, 1], [[7, 1], [6, 3], [1, 7], [3, 6]]⟩,
  ⟨[1, 1], [[6, 3], [7, 1], [6, 5], [7, 4]]⟩,
  ⟨[1, 1], [[6, 5], [7, 4], [6, 2], [1, 0]]⟩,
  ⟨[1, 1], [[4, 0], [2, 2], [1, 0], [6, 2]]⟩,
  ⟨[1, 1], [[4, 7], [5, 6], [0, 1], [2, 3]]⟩]

/-- `hollowOctagonCloseYMax` -/
def hollowOctagonCloseYMaxCode : List (Patch ℕ) := decode (fun n => ([2, 3, 1, 4, 5, 6, 0, 7] : List ℕ).getD n 0) hollowOctagonCloseYMaxRaw

set_option maxRecDepth 100000 in
set_option maxHeartbeats 4000000 in
theorem hollowOctagonCloseYMax_code (w h i : K) : hollowOctagonCloseYMax 0 (1 / 2) 1 w h i = decode (look (hollowOctagonTable w h i)) hollowOctagonCloseYMaxCode := by
  refine Eq.trans (show _ = decode (look ([(w + (1 / 2)), ((-h) + (1 / 2)), 1, ((-i) + (1 / 2)), (h + (1 / 2)), (i + (1 / 2)), 0, ((-w) + (1 / 2))] : List K)) hollowOctagonCloseYMaxRaw from rfl) (recode [2, 3, 1, 4, 5, 6, 0, 7] ?_ (by decide +kernel))
  simp only [look, hollowOctagonTable, List.map_cons, List.map_nil, List.getD_cons_zero, List.getD_cons_succ, List.cons.injEq, and_true]
  all_goals (and_intros <;> first | trivial | rfl | ring)

/-- table of values -/
def hollowCubeTable (a b c d e f g : K) : List K := [0, 1, 1 - f, f, 1 - g, g, b, 1 - b, a, 1 - a, e, 1 - e, 1 - d, d, 1 - c, c]

/-- `hollowCube` in the order of the expressions of the source -/
def hollowCubeRaw : List (Patch ℕ) := [
  ⟨[1, 1, 1], [[0, 1, 2], [2, 3, 2], [0, 0, 2], [2, 2, 2], [4, 5, 4], [2, 6, 7], [4, 4, 4], [2, 7, 7]]⟩,
  ⟨[1, 1, 1], [[3, 8, 8], [5, 5, 5], [3, 9, 8], [5, 4, 5], [3, 3, 3], [10, 10, 3], [3, 2, 3], [10, 11, 3]]⟩,
  ⟨[1, 1, 1], [[3, 3, 2], [1, 1, 2], [3, 2, 2], [1, 0, 2], [3, 8, 9], [5, 5, 4], [3, 9, 9], [5, 4, 4]]⟩,
  ⟨[1, 1, 1], [[4, 5, 5], [2, 6, 6], [4, 4, 5], [2, 7, 6], [11, 10, 3], [2, 3, 3], [11, 11, 3], [2, 2, 3]]⟩,
  ⟨[1, 1, 1], [[12, 2, 13], [2, 2, 3], [12, 2, 12], [2, 2, 2], [4, 4, 5], [2, 7, 6], [4, 4, 4], [2, 7, 7]]⟩,
  ⟨[1, 1, 1], [[3, 2, 3], [2, 2, 3], [13, 2, 13], [12, 2, 13], [10, 11, 3], [11, 11, 3], [5, 4, 5], [4, 4, 5]]⟩,
  ⟨[1, 1, 1], [[3, 2, 3], [13, 2, 13], [3, 2, 2], [13, 2, 12], [3, 9, 8], [5, 4, 5], [3, 9, 9], [5, 4, 4]]⟩,
  ⟨[1, 1, 1], [[13, 2, 12], [12, 2, 12], [3, 2, 2], [2, 2, 2], [5, 4, 4], [4, 4, 4], [1, 0, 2], [0, 0, 2]]⟩,
  ⟨[1, 1, 1], [[4, 5, 5], [2, 6, 6], [4, 5, 4], [2, 6, 7], [14, 3, 15], [2, 3, 3], [14, 3, 14], [2, 3, 2]]⟩,
  ⟨[1, 1, 1], [[3, 8, 8], [5, 5, 5], [3, 8, 9], [5, 5, 4], [3, 3, 3], [15, 3, 15], [3, 3, 2], [15, 3, 14]]⟩,
  ⟨[1, 1, 1], [[5, 5, 4], [4, 5, 4], [1, 1, 2], [0, 1, 2], [15, 3, 14], [14, 3, 14], [3, 3, 2], [2, 3, 2]]⟩,
  ⟨[1, 1, 1], [[10, 10, 3], [11, 10, 3], [5, 5, 5], [4, 5, 5], [3, 3, 3], [2, 3, 3], [15, 3, 15], [14, 3, 15]]⟩]

/-- `hollowCube` -/
def hollowCubeCode : List (Patch ℕ) := decode (fun n => ([2, 3, 1, 0, 4, 5, 6, 7, 8, 9, 10, 11, 12, 13, 14, 15] : List ℕ).getD n 0) hollowCubeRaw

set_option maxRecDepth 100000 in
set_option maxHeartbeats 4000000 in
theorem hollowCube_code (a b c d e f g : K) : hollowCube 0 1 a b c d e f g = decode (look (hollowCubeTable a b c d e f g)) hollowCubeCode := by
  refine Eq.trans (show _ = decode (look ([(1 - f), f, 1, 0, (1 - g), g, b, (1 - b), a, (1 - a), e, (1 - e), (1 - d), d, (1 - c), c] : List K)) hollowCubeRaw from rfl) (recode [2, 3, 1, 0, 4, 5, 6, 7, 8, 9, 10, 11, 12, 13, 14, 15] ?_ (by decide +kernel))
  simp only [look, hollowCubeTable, List.map_cons, List.map_nil, List.getD_cons_zero, List.getD_cons_succ, List.cons.injEq, and_true]
  all_goals (and_intros <;> first | trivial | rfl | ring)

/-- table of values -/
def cross3DLinearTable (m a b c d e f : K) : List K := [0, 1, 1 / 2 - m, 1 / 2 + m, 1 / 2 - a, 1 / 2 + a, 1 / 2 - b, 1 / 2 + b, 1 / 2 - c, 1 / 2 + c, 1 / 2 - d, 1 / 2 + d, 1 / 2 - e, 1 / 2 + e, 1 / 2 - f, 1 / 2 + f]

/-- `cross3DLinear` in the order of the expressions of the source -/
def cross3DLinearRaw : List (Patch ℕ) := [
  ⟨[1, 1, 1], [[0, 0, 0], [1, 0, 0], [0, 1, 0], [1, 1, 0], [0, 0, 1], [1, 0, 1], [0, 1, 1], [1, 1, 1]]⟩,
  ⟨[1, 1, 1], [[2, 3, 3], [0, 0, 0], [2, 4, 3], [0, 1, 0], [2, 3, 4], [0, 0, 1], [2, 4, 4], [0, 1, 1]]⟩,
  ⟨[1, 1, 1], [[1, 0, 0], [5, 6, 6], [1, 1, 0], [5, 7, 6], [1, 0, 1], [5, 6, 7], [1, 1, 1], [5, 7, 7]]⟩,
  ⟨[1, 1, 1], [[8, 2, 8], [9, 2, 8], [0, 0, 0], [1, 0, 0], [8, 2, 9], [9, 2, 9], [0, 0, 1], [1, 0, 1]]⟩,
  ⟨[1, 1, 1], [[0, 1, 0], [1, 1, 0], [10, 5, 10], [11, 5, 10], [0, 1, 1], [1, 1, 1], [10, 5, 11], [11, 5, 11]]⟩,
  ⟨[1, 1, 1], [[12, 12, 2], [13, 12, 2], [12, 13, 2], [13, 13, 2], [0, 0, 0], [1, 0, 0], [0, 1, 0], [1, 1, 0]]⟩,
  ⟨[1, 1, 1], [[0, 0, 1], [1, 0, 1], [0, 1, 1], [1, 1, 1], [14, 14, 5], [15, 14, 5], [14, 15, 5], [15, 15, 5]]⟩]

/-- `cross3DLinear` -/
def cross3DLinearCode : List (Patch ℕ) := decode (fun n => ([2, 3, 0, 4, 5, 1, 6, 7, 8, 9, 10, 11, 12, 13, 14, 15] : List ℕ).getD n 0) cross3DLinearRaw

set_option maxRecDepth 100000 in
set_option maxHeartbeats 4000000 in
theorem cross3DLinear_code (m a b c d e f : K) : cross3DLinear (1 / 2) m a b c d e f = decode (look (cross3DLinearTable m a b c d e f)) cross3DLinearCode := by
  refine Eq.trans (show _ = decode (look ([((-m) + (1 / 2)), (m + (1 / 2)), ((-(1 / 2)) + (1 / 2)), ((-a) + (1 / 2)), (a + (1 / 2)), ((1 / 2) + (1 / 2)), ((-b) + (1 / 2)), (b + (1 / 2)), ((-c) + (1 / 2)), (c + (1 / 2)), ((-d) + (1 / 2)), (d + (1 / 2)), ((-e) + (1 / 2)), (e + (1 / 2)), ((-f) + (1 / 2)), (f + (1 / 2))] : List K)) cross3DLinearRaw from rfl) (recode [2, 3, 0, 4, 5, 1, 6, 7, 8, 9, 10, 11, 12, 13, 14, 15] ?_ (by decide +kernel))
  simp only [look, cross3DLinearTable, List.map_cons, List.map_nil, List.getD_cons_zero, List.getD_cons_succ, List.cons.injEq, and_true]
  all_goals (and_intros <;> first | trivial | rfl | ring)

/-- table of values -/
def snappyTable (k a b r : K) : List K := [0, 1, k, b, 1 - k, 1 - a, 1 / 2 - k, 1 / 2 - b, 1 / 2 + k, 1 / 2, 1 / 2 + a, k + r, 1 / 2 - k - r, 1 / 2 + k + r, 1 - k - r]

/-- `snappy` in the order of the expressions of the source -/
def snappyRaw : List (Patch ℕ) := [
  ⟨[1, 1], [[0, 0], [1, 0], [0, 2], [1, 2]]⟩,
  ⟨[1, 1], [[3, 0], [4, 0], [3, 2], [4, 2]]⟩,
  ⟨[1, 1], [[0, 5], [1, 5], [0, 4], [1, 4]]⟩,
  ⟨[1, 1], [[3, 5], [4, 5], [3, 4], [4, 4]]⟩,
  ⟨[1, 1], [[6, 7], [8, 7], [6, 9], [8, 9]]⟩,
  ⟨[1, 1], [[6, 9], [8, 9], [6, 10], [8, 10]]⟩,
  ⟨[3, 1], [[1, 0], [11, 0], [12, 7], [6, 7], [1, 2], [11, 2], [12, 9], [6, 9]]⟩,
  ⟨[3, 1], [[13, 14], [15, 14], [16, 17], [18, 17], [13, 19], [15, 19], [16, 20], [18, 20]]⟩,
  ⟨[3, 1], [[1, 5], [11, 5], [12, 9], [6, 9], [1, 4], [11, 4], [12, 10], [6, 10]]⟩,
  ⟨[3, 1], [[13, 19], [15, 19], [16, 21], [18, 21], [13, 22], [15, 22], [16, 23], [18, 23]]⟩]

/-- `snappy` -/
def snappyCode : List (Patch ℕ) := decode (fun n => ([0, 2, 3, 4, 1, 5, 6, 7, 8, 9, 10, 11, 12, 8, 7, 13, 14, 0, 4, 9, 3, 5, 10, 1] : List ℕ).getD n 0) snappyRaw

set_option maxRecDepth 100000 in
set_option maxHeartbeats 4000000 in
theorem snappy_code (k a b r : K) : snappy 0 (1 / 2) 1 k (1 - k) a (1 - a) b r = decode (look (snappyTable k a b r)) snappyCode := by
  refine Eq.trans (show _ = decode (look ([0, k, b, (1 - k), 1, (1 - a), ((1 / 2) - k), ((1 / 2) - b), ((1 / 2) + k), (1 / 2), ((1 / 2) + a), (k + r), (((1 / 2) - k) - r), (k + (1 / 2)), (((1 / 2) - b) + 0), ((k + r) + (1 / 2)), ((((1 / 2) - k) - r) + (1 / 2)), (0 + 0), (((1 / 2) - k) + (1 / 2)), ((1 / 2) + 0), (b + 0), ((1 - a) + 0), (((1 / 2) + a) + 0), (1 + 0)] : List K)) snappyRaw from rfl) (recode [0, 2, 3, 4, 1, 5, 6, 7, 8, 9, 10, 11, 12, 8, 7, 13, 14, 0, 4, 9, 3, 5, 10, 1] ?_ (by decide +kernel))
  simp only [look, snappyTable, List.map_cons, List.map_nil, List.getD_cons_zero, List.getD_cons_succ, List.cons.injEq, and_true]
  all_goals (and_intros <;> first | trivial | rfl | ring)

/-- table of values -/
def chiTable (s c : K) : List K := [0, 1, 1 / 2, 1 / 2 - s, 1 / 2 - c, 1 / 2 + c, 1 / 2 + s]

/-- `chi` in the order of the expressions of the source -/
def chiRaw : List (Patch ℕ) := [
  ⟨[2], [[0, 0], [1, 2], [3, 3]]⟩,
  ⟨[2], [[0, 0], [4, 1], [5, 3]]⟩,
  ⟨[2], [[0, 0], [6, 4], [5, 5]]⟩,
  ⟨[2], [[0, 0], [2, 6], [3, 5]]⟩]

/-- `chi` -/
def chiCode : List (Patch ℕ) := decode (fun n => ([2, 3, 4, 0, 5, 1, 6] : List ℕ).getD n 0) chiRaw

set_option maxRecDepth 100000 in
set_option maxHeartbeats 4000000 in
theorem chi_code (s c : K) : chi 0 (1 / 2) s c = decode (look (chiTable s c)) chiCode := by
  refine Eq.trans (show _ = decode (look ([(0 + (1 / 2)), ((-s) + (1 / 2)), ((-c) + (1 / 2)), ((-(1 / 2)) + (1 / 2)), (c + (1 / 2)), ((1 / 2) + (1 / 2)), (s + (1 / 2))] : List K)) chiRaw from rfl) (recode [2, 3, 4, 0, 5, 1, 6] ?_ (by decide +kernel))
  simp only [look, chiTable, List.map_cons, List.map_nil, List.getD_cons_zero, List.getD_cons_succ, List.cons.injEq, and_true]
  all_goals (and_intros <;> first | trivial | rfl | ring)

/-- table of values -/
def cubeVoidTable (x : ℕ → ℕ → K) : List K := [0, 1, x 0 0, x 0 1, x 0 2, x 1 0, x 1 1, x 1 2, x 2 0, x 2 1, x 2 2, x 3 0, x 3 1, x 3 2, x 4 0, x 4 1, x 4 2, x 5 0, x 5 1, x 5 2, x 6 0, x 6 1, x 6 2, x 7 0, x 7 1, x 7 2]

/-- `cubeVoid` in the order of the expressions of the source -/
def cubeVoidRaw : List (Patch ℕ) := [
  ⟨[1, 1, 1], [[0, 0, 0], [1, 0, 0], [0, 1, 0], [1, 1, 0], [2, 3, 4], [5, 6, 7], [8, 9, 10], [11, 12, 13]]⟩,
  ⟨[1, 1, 1], [[14, 15, 16], [17, 18, 19], [20, 21, 22], [23, 24, 25], [0, 0, 1], [1, 0, 1], [0, 1, 1], [1, 1, 1]]⟩,
  ⟨[1, 1, 1], [[0, 0, 0], [1, 0, 0], [2, 3, 4], [5, 6, 7], [0, 0, 1], [1, 0, 1], [14, 15, 16], [17, 18, 19]]⟩,
  ⟨[1, 1, 1], [[8, 9, 10], [11, 12, 13], [0, 1, 0], [1, 1, 0], [20, 21, 22], [23, 24, 25], [0, 1, 1], [1, 1, 1]]⟩,
  ⟨[1, 1, 1], [[0, 0, 0], [2, 3, 4], [0, 1, 0], [8, 9, 10], [0, 0, 1], [14, 15, 16], [0, 1, 1], [20, 21, 22]]⟩,
  ⟨[1, 1, 1], [[5, 6, 7], [1, 0, 0], [11, 12, 13], [1, 1, 0], [17, 18, 19], [1, 0, 1], [23, 24, 25], [1, 1, 1]]⟩]

/-- `cubeVoid` -/
def cubeVoidCode : List (Patch ℕ) := decode (fun n => ([0, 1, 2, 3, 4, 5, 6, 7, 8, 9, 10, 11, 12, 13, 14, 15, 16, 17, 18, 19, 20, 21, 22, 23, 24, 25] : List ℕ).getD n 0) cubeVoidRaw

set_option maxRecDepth 100000 in
set_option maxHeartbeats 4000000 in
theorem cubeVoid_code (x : ℕ → ℕ → K) : cubeVoid 0 1 [[x 0 0, x 0 1, x 0 2], [x 1 0, x 1 1, x 1 2], [x 2 0, x 2 1, x 2 2], [x 3 0, x 3 1, x 3 2], [x 4 0, x 4 1, x 4 2], [x 5 0, x 5 1, x 5 2], [x 6 0, x 6 1, x 6 2], [x 7 0, x 7 1, x 7 2]] = decode (look (cubeVoidTable x)) cubeVoidCode := by
  refine Eq.trans (show _ = decode (look ([0, 1, x 0 0, x 0 1, x 0 2, x 1 0, x 1 1, x 1 2, x 2 0, x 2 1, x 2 2, x 3 0, x 3 1, x 3 2, x 4 0, x 4 1, x 4 2, x 5 0, x 5 1, x 5 2, x 6 0, x 6 1, x 6 2, x 7 0, x 7 1, x 7 2] : List K)) cubeVoidRaw from rfl) (recode [0, 1, 2, 3, 4, 5, 6, 7, 8, 9, 10, 11, 12, 13, 14, 15, 16, 17, 18, 19, 20, 21, 22, 23, 24, 25] ?_ (by decide +kernel))
  simp only [look, cubeVoidTable, List.map_cons, List.map_nil, List.getD_cons_zero, List.getD_cons_succ, List.cons.injEq, and_true]
  all_goals (and_intros <;> first | trivial | rfl | ring)

/-- table of values -/
def ellipsVoidTable (x : ℕ → ℕ → K) : List K := [0, 1, 1 / 2, x 0 0, x 0 1, x 0 2, x 1 0, x 1 1, x 1 2, x 2 0, x 2 1, x 2 2, x 3 0, x 3 1, x 3 2, x 4 0, x 4 1, x 4 2, x 5 0, x 5 1, x 5 2, x 6 0, x 6 1, x 6 2, x 7 0, x 7 1, x 7 2, x 8 0, x 8 1, x 8 2, x 18 0, x 18 1, x 18 2, x 19 0, x 19 1, x 19 2, x 20 0, x 20 1, x 20 2, x 21 0, x 21 1, x 21 2, x 22 0, x 22 1, x 22 2, x 23 0, x 23 1, x 23 2, x 24 0, x 24 1, x 24 2, x 25 0, x 25 1, x 25 2, x 26 0, x 26 1, x 26 2, x 9 0, x 9 1, x 9 2, x 10 0, x 10 1, x 10 2, x 11 0, x 11 1, x 11 2, x 15 0, x 15 1, x 15 2, x 16 0, x 16 1, x 16 2, x 17 0, x 17 1, x 17 2, x 12 0, x 12 1, x 12 2, x 14 0, x 14 1, x 14 2]

/-- `ellipsVoid` in the order of the expressions of the source -/
def ellipsVoidRaw : List (Patch ℕ) := [
  ⟨[2, 2, 1], [[0, 0, 0], [1, 0, 0], [2, 0, 0], [0, 1, 0], [1, 1, 0], [2, 1, 0], [0, 2, 0], [1, 2, 0], [2, 2, 0], [3, 4, 5], [6, 7, 8], [9, 10, 11], [12, 13, 14], [15, 16, 17], [18, 19, 20], [21, 22, 23], [24, 25, 26], [27, 28, 29]]⟩,
  ⟨[2, 2, 1], [[30, 31, 32], [33, 34, 35], [36, 37, 38], [39, 40, 41], [42, 43, 44], [45, 46, 47], [48, 49, 50], [51, 52, 53], [54, 55, 56], [0, 0, 2], [1, 0, 2], [2, 0, 2], [0, 1, 2], [1, 1, 2], [2, 1, 2], [0, 2, 2], [1, 2, 2], [2, 2, 2]]⟩,
  ⟨[2, 1, 2], [[0, 0, 0], [1, 0, 0], [2, 0, 0], [3, 4, 5], [6, 7, 8], [9, 10, 11], [0, 0, 1], [1, 0, 1], [2, 0, 1], [57, 58, 59], [60, 61, 62], [63, 64, 65], [0, 0, 2], [1, 0, 2], [2, 0, 2], [30, 31, 32], [33, 34, 35], [36, 37, 38]]⟩,
  ⟨[2, 1, 2], [[21, 22, 23], [24, 25, 26], [27, 28, 29], [0, 2, 0], [1, 2, 0], [2, 2, 0], [66, 67, 68], [69, 70, 71], [72, 73, 74], [0, 2, 1], [1, 2, 1], [2, 2, 1], [48, 49, 50], [51, 52, 53], [54, 55, 56], [0, 2, 2], [1, 2, 2], [2, 2, 2]]⟩,
  ⟨[1, 2, 2], [[0, 0, 0], [3, 4, 5], [0, 1, 0], [12, 13, 14], [0, 2, 0], [21, 22, 23], [0, 0, 1], [57, 58, 59], [0, 1, 1], [75, 76, 77], [0, 2, 1], [66, 67, 68], [0, 0, 2], [30, 31, 32], [0, 1, 2], [39, 40, 41], [0, 2, 2], [48, 49, 50]]⟩,
  ⟨[1, 2, 2], [[9, 10, 11], [2, 0, 0], [18, 19, 20], [2, 1, 0], [27, 28, 29], [2, 2, 0], [63, 64, 65], [2, 0, 1], [78, 79, 80], [2, 1, 1], [72, 73, 74], [2, 2, 1], [36, 37, 38], [2, 0, 2], [45, 46, 47], [2, 1, 2], [54, 55, 56], [2, 2, 2]]⟩]

/-- `ellipsVoid` -/
def ellipsVoidCode : List (Patch ℕ) := decode (fun n => ([0, 2, 1, 3, 4, 5, 6, 7, 8, 9, 10, 11, 12, 13, 14, 15, 16, 17, 18, 19, 20, 21, 22, 23, 24, 25, 26, 27, 28, 29, 30, 31, 32, 33, 34, 35, 36, 37, 38, 39, 40, 41, 42, 43, 44, 45, 46, 47, 48, 49, 50, 51, 52, 53, 54, 55, 56, 57, 58, 59, 60, 61, 62, 63, 64, 65, 66, 67, 68, 69, 70, 71, 72, 73, 74, 75, 76, 77, 78, 79, 80] : List ℕ).getD n 0) ellipsVoidRaw

set_option maxRecDepth 100000 in
set_option maxHeartbeats 4000000 in
theorem ellipsVoid_code (x : ℕ → ℕ → K) : ellipsVoid 0 (1 / 2) 1 [[x 0 0, x 0 1, x 0 2], [x 1 0, x 1 1, x 1 2], [x 2 0, x 2 1, x 2 2], [x 3 0, x 3 1, x 3 2], [x 4 0, x 4 1, x 4 2], [x 5 0, x 5 1, x 5 2], [x 6 0, x 6 1, x 6 2], [x 7 0, x 7 1, x 7 2], [x 8 0, x 8 1, x 8 2], [x 9 0, x 9 1, x 9 2], [x 10 0, x 10 1, x 10 2], [x 11 0, x 11 1, x 11 2], [x 12 0, x 12 1, x 12 2], [x 13 0, x 13 1, x 13 2], [x 14 0, x 14 1, x 14 2], [x 15 0, x 15 1, x 15 2], [x 16 0, x 16 1, x 16 2], [x 17 0, x 17 1, x 17 2], [x 18 0, x 18 1, x 18 2], [x 19 0, x 19 1, x 19 2], [x 20 0, x 20 1, x 20 2], [x 21 0, x 21 1, x 21 2], [x 22 0, x 22 1, x 22 2], [x 23 0, x 23 1, x 23 2], [x 24 0, x 24 1, x 24 2], [x 25 0, x 25 1, x 25 2], [x 26 0, x 26 1, x 26 2]] = decode (look (ellipsVoidTable x)) ellipsVoidCode := by
  refine Eq.trans (show _ = decode (look ([0, (1 / 2), 1, x 0 0, x 0 1, x 0 2, x 1 0, x 1 1, x 1 2, x 2 0, x 2 1, x 2 2, x 3 0, x 3 1, x 3 2, x 4 0, x 4 1, x 4 2, x 5 0, x 5 1, x 5 2, x 6 0, x 6 1, x 6 2, x 7 0, x 7 1, x 7 2, x 8 0, x 8 1, x 8 2, x 18 0, x 18 1, x 18 2, x 19 0, x 19 1, x 19 2, x 20 0, x 20 1, x 20 2, x 21 0, x 21 1, x 21 2, x 22 0, x 22 1, x 22 2, x 23 0, x 23 1, x 23 2, x 24 0, x 24 1, x 24 2, x 25 0, x 25 1, x 25 2, x 26 0, x 26 1, x 26 2, x 9 0, x 9 1, x 9 2, x 10 0, x 10 1, x 10 2, x 11 0, x 11 1, x 11 2, x 15 0, x 15 1, x 15 2, x 16 0, x 16 1, x 16 2, x 17 0, x 17 1, x 17 2, x 12 0, x 12 1, x 12 2, x 14 0, x 14 1, x 14 2] : List K)) ellipsVoidRaw from rfl) (recode [0, 2, 1, 3, 4, 5, 6, 7, 8, 9, 10, 11, 12, 13, 14, 15, 16, 17, 18, 19, 20, 21, 22, 23, 24, 25, 26, 27, 28, 29, 30, 31, 32, 33, 34, 35, 36, 37, 38, 39, 40, 41, 42, 43, 44, 45, 46, 47, 48, 49, 50, 51, 52, 53, 54, 55, 56, 57, 58, 59, 60, 61, 62, 63, 64, 65, 66, 67, 68, 69, 70, 71, 72, 73, 74, 75, 76, 77, 78, 79, 80] ?_ (by decide +kernel))
  simp only [look, ellipsVoidTable, List.map_cons, List.map_nil, List.getD_cons_zero, List.getD_cons_succ, List.cons.injEq, and_true]
  all_goals (and_intros <;> first | trivial | rfl | ring)

/-- the tiles with trees of common faces -/
def moreTrees : List (List (Patch ℕ) × List (ℕ × ℕ)) := [
  (cross2DCode, [(1, 0), (2, 0), (3, 0), (4, 0)]),
  (cross2DCloseXMinCode, [(1, 0), (2, 1), (3, 1)]),
  (cross2DCloseXMaxCode, [(1, 0), (2, 1), (3, 1)]),
  (cross2DCloseYMinCode, [(1, 0), (2, 1), (3, 1)]),
  (cross2DCloseYMaxCode, [(1, 0), (2, 1), (3, 1)]),
  (doubleLatticeCode, [(1, 0), (2, 1), (3, 2), (4, 3), (5, 4), (6, 5), (7, 6), (8, 7), (9, 8), (10, 9), (11, 0), (12, 10), (13, 9), (14, 0), (15, 1), (16, 3), (17, 4), (18, 6), (19, 7)]),
  (hollowOctagonCode, [(1, 0), (6, 1), (7, 0), (2, 7), (3, 2), (4, 3), (5, 6)]),
  (hollowOctagonCloseXMinCode, [(1, 0), (6, 1), (7, 0), (2, 7), (3, 2), (4, 3), (5, 6)]),
  (hollowOctagonCloseXMaxCode, [(1, 0), (6, 1), (7, 0), (2, 7), (3, 2), (4, 3), (5, 6)]),
  (hollowOctagonCloseYMinCode, [(1, 0), (6, 1), (7, 0), (2, 7), (3, 2), (4, 3), (5, 6)]),
  (hollowOctagonCloseYMaxCode, [(1, 0), (6, 1), (7, 0), (2, 7), (3, 2), (4, 3), (5, 6)]),
  (cross3DLinearCode, [(1, 0), (2, 0), (3, 0), (4, 0), (5, 0), (6, 0)]),
  (snappyCode, [(6, 0), (4, 6), (5, 4), (7, 4), (8, 5), (9, 5), (1, 7), (2, 8), (3, 9)]),
  (chiCode, [(1, 0), (2, 0), (3, 0)]),
  (cubeVoidCode, [(2, 0), (3, 0), (4, 0), (5, 0), (1, 2)]),
  (ellipsVoidCode, [(2, 0), (3, 0), (4, 0), (5, 0), (1, 2)])]

end

end Splinepy.Tiles
