import Verif.Model.ControlMesh
import Mathlib.Tactic.Ring
import Mathlib.Tactic.Linarith
import Mathlib.Algebra.Order.Ring.Rat

/-!
C141: the vertices of the control mesh are the control points, and its lines join exactly the neighbours of the control net.
-/
namespace Splinepy.ControlMesh
open Splinepy.Index (Spline)
open Splinepy.Spec (netSize ValidSpline)
open Splinepy.Mesh

variable {K P : Type}

/-! ### Specification -/

/-- number of the control point with the given indices, the first index running fastest -/
def Spec.number : List ℕ → List ℕ → ℕ
  | n :: ns, i :: is => i + n * Spec.number ns is
  | _, _ => 0

/-- Control points `a` and `b` of a net with the sizes `ns` are neighbours, `b` after `a`: their indices differ by one in one direction. -/
def Spec.Neighbours (ns : List ℕ) (a b : ℕ) : Prop :=
  ∃ (index : List ℕ) (k : ℕ), index.length = ns.length ∧ k < ns.length ∧ (∀ l < ns.length, index.getD l 0 < ns.getD l 0) ∧ index.getD k 0 + 1 < ns.getD k 0 ∧
    a = Spec.number ns index ∧ b = Spec.number ns (index.set k (index.getD k 0 + 1))

/-! ### Proof -/

theorem neighbours_one (n a b : ℕ) : Spec.Neighbours [n] a b ↔ b = a + 1 ∧ b < n := by
  constructor
  · rintro ⟨index, k, hl, hk, -, h1, rfl, rfl⟩
    obtain ⟨i, rfl⟩ := List.length_eq_one_iff.1 hl
    obtain rfl : k = 0 := by simpa using hk
    simpa [Spec.number] using h1
  · rintro ⟨rfl, h⟩
    exact ⟨[a], 0, rfl, by simp, fun l hl => by obtain rfl : l = 0 := by simpa using hl
                                                simp; omega, by simpa using h, by simp [Spec.number], by simp [Spec.number]⟩

theorem neighbours_two (r0 r1 a b : ℕ) : Spec.Neighbours [r0, r1] a b ↔
    ∃ i j, i < r0 ∧ j < r1 ∧ a = i + r0 * j ∧ ((i + 1 < r0 ∧ b = i + 1 + r0 * j) ∨ (j + 1 < r1 ∧ b = i + r0 * (j + 1))) := by
  constructor
  · rintro ⟨index, k, hl, hk, h0, h1, rfl, rfl⟩
    obtain ⟨i, j, rfl⟩ := List.length_eq_two.1 hl
    have hi := h0 0 (by simp)
    have hj := h0 1 (by simp)
    simp only [List.length_cons, List.length_nil] at hk
    rcases (by omega : k = 0 ∨ k = 1) with rfl | rfl
    · exact ⟨i, j, by simpa using hi, by simpa using hj, by simp [Spec.number], Or.inl ⟨by simpa using h1, by simp [Spec.number]⟩⟩
    · exact ⟨i, j, by simpa using hi, by simpa using hj, by simp [Spec.number], Or.inr ⟨by simpa using h1, by simp [Spec.number]⟩⟩
  · rintro ⟨i, j, hi, hj, rfl, ⟨h, rfl⟩ | ⟨h, rfl⟩⟩
    · refine ⟨[i, j], 0, rfl, by simp, fun l hl => ?_, by simpa using h, by simp [Spec.number], by simp [Spec.number]⟩
      simp only [List.length_cons, List.length_nil] at hl
      rcases (by omega : l = 0 ∨ l = 1) with rfl | rfl <;> simpa
    · refine ⟨[i, j], 1, rfl, by simp, fun l hl => ?_, by simpa using h, by simp [Spec.number], by simp [Spec.number]⟩
      simp only [List.length_cons, List.length_nil] at hl
      rcases (by omega : l = 0 ∨ l = 1) with rfl | rfl <;> simpa

theorem neighbours_three (r0 r1 r2 a b : ℕ) : Spec.Neighbours [r0, r1, r2] a b ↔
    ∃ i j k, i < r0 ∧ j < r1 ∧ k < r2 ∧ a = i + r0 * (j + r1 * k) ∧
      ((i + 1 < r0 ∧ b = i + 1 + r0 * (j + r1 * k)) ∨ (j + 1 < r1 ∧ b = i + r0 * (j + 1 + r1 * k)) ∨ (k + 1 < r2 ∧ b = i + r0 * (j + r1 * (k + 1)))) := by
  constructor
  · rintro ⟨index, d, hl, hd, h0, h1, rfl, rfl⟩
    obtain ⟨i, j, k, rfl⟩ := List.length_eq_three.1 hl
    have hi := h0 0 (by simp)
    have hj := h0 1 (by simp)
    have hk := h0 2 (by simp)
    simp only [List.length_cons, List.length_nil] at hd
    refine ⟨i, j, k, by simpa using hi, by simpa using hj, by simpa using hk, by simp [Spec.number], ?_⟩
    rcases (by omega : d = 0 ∨ d = 1 ∨ d = 2) with rfl | rfl | rfl
    · exact Or.inl ⟨by simpa using h1, by simp [Spec.number]⟩
    · exact Or.inr (Or.inl ⟨by simpa using h1, by simp [Spec.number]⟩)
    · exact Or.inr (Or.inr ⟨by simpa using h1, by simp [Spec.number]⟩)
  · rintro ⟨i, j, k, hi, hj, hk, rfl, h⟩
    have hin : ∀ l < [r0, r1, r2].length, [i, j, k].getD l 0 < [r0, r1, r2].getD l 0 := by
      intro l hl
      simp only [List.length_cons, List.length_nil] at hl
      rcases (by omega : l = 0 ∨ l = 1 ∨ l = 2) with rfl | rfl | rfl <;> simpa
    rcases h with ⟨h, rfl⟩ | ⟨h, rfl⟩ | ⟨h, rfl⟩
    · exact ⟨[i, j, k], 0, rfl, by simp, hin, by simpa using h, by simp [Spec.number], by simp [Spec.number]⟩
    · exact ⟨[i, j, k], 1, rfl, by simp, hin, by simpa using h, by simp [Spec.number], by simp [Spec.number]⟩
    · exact ⟨[i, j, k], 2, rfl, by simp, hin, by simpa using h, by simp [Spec.number], by simp [Spec.number]⟩

/-- membership among the lines: a line of a cell, in one of its two directions -/
theorem mem_lines (m : Mesh P) (a b : ℕ) (hab : a < b) : (a, b) ∈ lines m ↔ ∃ c ∈ m.elements, (a, b) ∈ cellLines c ∨ (b, a) ∈ cellLines c := by
  unfold lines
  rw [List.mem_dedup, List.mem_map]
  constructor
  · rintro ⟨⟨x, y⟩, h, e⟩
    obtain ⟨c, hc, h⟩ := List.mem_flatMap.1 h
    simp only [Prod.mk.injEq] at e
    rcases le_total x y with hxy | hxy
    · rw [min_eq_left hxy, max_eq_right hxy] at e
      obtain ⟨rfl, rfl⟩ := e
      exact ⟨c, hc, Or.inl h⟩
    · rw [min_eq_right hxy, max_eq_left hxy] at e
      obtain ⟨rfl, rfl⟩ := e
      exact ⟨c, hc, Or.inr h⟩
  · rintro ⟨c, hc, h | h⟩
    · exact ⟨(a, b), List.mem_flatMap.2 ⟨c, hc, h⟩, by simp [hab.le]⟩
    · exact ⟨(b, a), List.mem_flatMap.2 ⟨c, hc, h⟩, by simp [hab.le]⟩

theorem lines_le (m : Mesh P) (a b : ℕ) (h : (a, b) ∈ lines m) : a ≤ b := by
  unfold lines at h
  rw [List.mem_dedup, List.mem_map] at h
  obtain ⟨⟨x, y⟩, -, e⟩ := h
  simp only [Prod.mk.injEq] at e
  rw [← e.1, ← e.2]
  exact min_le_max

theorem lines_sub (m : Mesh P) (a b : ℕ) (h : (a, b) ∈ lines m) : ∃ c ∈ m.elements, (a, b) ∈ cellLines c ∨ (b, a) ∈ cellLines c := by
  unfold lines at h
  rw [List.mem_dedup, List.mem_map] at h
  obtain ⟨⟨x, y⟩, h, e⟩ := h
  obtain ⟨c, hc, h⟩ := List.mem_flatMap.1 h
  simp only [Prod.mk.injEq] at e
  rcases le_total x y with hxy | hxy
  · rw [min_eq_left hxy, max_eq_right hxy] at e
    obtain ⟨rfl, rfl⟩ := e
    exact ⟨c, hc, Or.inl h⟩
  · rw [min_eq_right hxy, max_eq_left hxy] at e
    obtain ⟨rfl, rfl⟩ := e
    exact ⟨c, hc, Or.inr h⟩

theorem mem_quadFaces (r0 r1 : ℕ) (c : List ℕ) : c ∈ quadFaces r0 r1 ↔
    ∃ i j, i + 1 < r0 ∧ j + 1 < r1 ∧ c = [i + r0 * j, i + 1 + r0 * j, i + 1 + r0 * (j + 1), i + r0 * (j + 1)] := by
  unfold quadFaces
  simp only [List.mem_flatMap, List.mem_map, List.mem_range]
  constructor
  · rintro ⟨j, hj, i, hi, rfl⟩
    exact ⟨i, j, by omega, by omega, rfl⟩
  · rintro ⟨i, j, hi, hj, rfl⟩
    exact ⟨j, by omega, i, by omega, rfl⟩

theorem mem_hexaVolumes (r0 r1 r2 : ℕ) (c : List ℕ) : c ∈ hexaVolumes r0 r1 r2 ↔
    ∃ i j k, i + 1 < r0 ∧ j + 1 < r1 ∧ k + 1 < r2 ∧ c = [i + r0 * (j + r1 * k), i + 1 + r0 * (j + r1 * k), i + 1 + r0 * (j + 1 + r1 * k), i + r0 * (j + 1 + r1 * k),
      i + r0 * (j + r1 * (k + 1)), i + 1 + r0 * (j + r1 * (k + 1)), i + 1 + r0 * (j + 1 + r1 * (k + 1)), i + r0 * (j + 1 + r1 * (k + 1))] := by
  unfold hexaVolumes
  simp only [List.mem_flatMap, List.mem_map, List.mem_range]
  constructor
  · rintro ⟨k, hk, j, hj, i, hi, rfl⟩
    exact ⟨i, j, k, by omega, by omega, by omega, rfl⟩
  · rintro ⟨i, j, k, hi, hj, hk, rfl⟩
    exact ⟨k, by omega, j, by omega, i, by omega, rfl⟩

/-- a neighbour in the last direction has a larger number -/
theorem neighbours_lt (ns : List ℕ) (hl : ns.length = 1 ∨ ns.length = 2 ∨ ns.length = 3) (a b : ℕ) (h : Spec.Neighbours ns a b) : a < b := by
  rcases hl with hl | hl | hl
  · obtain ⟨n, rfl⟩ := List.length_eq_one_iff.1 hl
    have := (neighbours_one n a b).1 h
    omega
  · obtain ⟨r0, r1, rfl⟩ := List.length_eq_two.1 hl
    obtain ⟨i, j, hi, hj, rfl, ⟨-, rfl⟩ | ⟨-, rfl⟩⟩ := (neighbours_two r0 r1 a b).1 h
    · omega
    · rw [Nat.mul_succ]; omega
  · obtain ⟨r0, r1, r2, rfl⟩ := List.length_eq_three.1 hl
    obtain ⟨i, j, k, hi, hj, hk, rfl, ⟨-, rfl⟩ | ⟨-, rfl⟩ | ⟨-, rfl⟩⟩ := (neighbours_three r0 r1 r2 a b).1 h
    · omega
    · have : r0 * (j + r1 * k) + r0 ≤ r0 * (j + 1 + r1 * k) := by rw [← Nat.mul_succ]; exact Nat.mul_le_mul_left _ (by omega)
      omega
    · have : r0 * (j + r1 * k) + r0 ≤ r0 * (j + r1 * (k + 1)) := by rw [← Nat.mul_succ]; exact Nat.mul_le_mul_left _ (by rw [Nat.mul_succ]; omega)
      omega

theorem quad_lines (verts : List P) (r0 r1 : ℕ) (h0 : 2 ≤ r0) (h1 : 2 ≤ r1) (a b : ℕ) : (a, b) ∈ lines ⟨verts, quadFaces r0 r1⟩ ↔ Spec.Neighbours [r0, r1] a b := by
  constructor
  · intro h
    have hle := lines_le _ _ _ h
    obtain ⟨c, hc, h⟩ := lines_sub _ _ _ h
    obtain ⟨i, j, hi, hj, rfl⟩ := (mem_quadFaces r0 r1 c).1 hc
    rw [neighbours_two]
    have hs : r0 * (j + 1) = r0 * j + r0 := Nat.mul_succ _ _
    simp only [cellLines, List.mem_cons, Prod.mk.injEq, List.not_mem_nil, or_false] at h
    rcases h with (⟨rfl, rfl⟩ | ⟨rfl, rfl⟩ | ⟨rfl, rfl⟩ | ⟨rfl, rfl⟩) | (⟨rfl, rfl⟩ | ⟨rfl, rfl⟩ | ⟨rfl, rfl⟩ | ⟨rfl, rfl⟩)
    · exact ⟨i, j, by omega, by omega, rfl, Or.inl ⟨hi, rfl⟩⟩
    · exact ⟨i + 1, j, by omega, by omega, rfl, Or.inr ⟨hj, rfl⟩⟩
    · omega
    · omega
    · omega
    · omega
    · exact ⟨i, j + 1, by omega, by omega, rfl, Or.inl ⟨hi, rfl⟩⟩
    · exact ⟨i, j, by omega, by omega, rfl, Or.inr ⟨hj, rfl⟩⟩
  · intro hn
    rw [mem_lines _ _ _ (neighbours_lt _ (by simp) _ _ hn)]
    obtain ⟨i, j, hi, hj, rfl, ⟨h, rfl⟩ | ⟨h, rfl⟩⟩ := (neighbours_two r0 r1 a b).1 hn
    all_goals clear hn
    · by_cases hj' : j + 1 < r1
      · exact ⟨_, (mem_quadFaces r0 r1 _).2 ⟨i, j, h, hj', rfl⟩, by simp [cellLines]⟩
      · obtain ⟨j, rfl⟩ : ∃ j', j = j' + 1 := ⟨j - 1, by omega⟩
        exact ⟨_, (mem_quadFaces r0 r1 _).2 ⟨i, j, h, by omega, rfl⟩, by simp [cellLines]⟩
    · by_cases hi' : i + 1 < r0
      · exact ⟨_, (mem_quadFaces r0 r1 _).2 ⟨i, j, hi', h, rfl⟩, by simp [cellLines]⟩
      · obtain ⟨i, rfl⟩ : ∃ i', i = i' + 1 := ⟨i - 1, by omega⟩
        exact ⟨_, (mem_quadFaces r0 r1 _).2 ⟨i, j, by omega, h, rfl⟩, by simp [cellLines]⟩

theorem hexa_lines (verts : List P) (r0 r1 r2 : ℕ) (h0 : 2 ≤ r0) (h1 : 2 ≤ r1) (h2 : 2 ≤ r2) (a b : ℕ) :
    (a, b) ∈ lines ⟨verts, hexaVolumes r0 r1 r2⟩ ↔ Spec.Neighbours [r0, r1, r2] a b := by
  constructor
  · intro h
    have hle := lines_le _ _ _ h
    obtain ⟨c, hc, h⟩ := lines_sub _ _ _ h
    obtain ⟨i, j, k, hi, hj, hk, rfl⟩ := (mem_hexaVolumes r0 r1 r2 c).1 hc
    rw [neighbours_three]
    have e1 : ∀ k', r0 * (j + 1 + r1 * k') = r0 * (j + r1 * k') + r0 := fun k' => by ring
    have e2 : ∀ j', r0 * (j' + r1 * (k + 1)) = r0 * (j' + r1 * k) + r0 * r1 := fun j' => by ring
    have e3 : 0 < r0 * r1 := Nat.mul_pos (by omega) (by omega)
    simp only [cellLines, List.mem_cons, Prod.mk.injEq, List.not_mem_nil, or_false] at h
    rcases h with h | h
    · rcases h with ⟨rfl, rfl⟩ | ⟨rfl, rfl⟩ | ⟨rfl, rfl⟩ | ⟨rfl, rfl⟩ | ⟨rfl, rfl⟩ | ⟨rfl, rfl⟩ | ⟨rfl, rfl⟩ | ⟨rfl, rfl⟩ | ⟨rfl, rfl⟩ | ⟨rfl, rfl⟩ | ⟨rfl, rfl⟩ | ⟨rfl, rfl⟩
      · exact ⟨i, j, k, by omega, by omega, by omega, rfl, Or.inl ⟨hi, rfl⟩⟩
      · exact ⟨i + 1, j, k, by omega, by omega, by omega, rfl, Or.inr (Or.inl ⟨hj, rfl⟩)⟩
      · omega
      · have := e1 k; omega
      · exact ⟨i, j, k + 1, by omega, by omega, by omega, rfl, Or.inl ⟨hi, rfl⟩⟩
      · exact ⟨i + 1, j, k + 1, by omega, by omega, by omega, rfl, Or.inr (Or.inl ⟨hj, rfl⟩)⟩
      · omega
      · have := e1 (k + 1); omega
      · exact ⟨i, j, k, by omega, by omega, by omega, rfl, Or.inr (Or.inr ⟨hk, rfl⟩)⟩
      · exact ⟨i + 1, j, k, by omega, by omega, by omega, rfl, Or.inr (Or.inr ⟨hk, rfl⟩)⟩
      · exact ⟨i + 1, j + 1, k, by omega, by omega, by omega, rfl, Or.inr (Or.inr ⟨hk, rfl⟩)⟩
      · exact ⟨i, j + 1, k, by omega, by omega, by omega, rfl, Or.inr (Or.inr ⟨hk, rfl⟩)⟩
    · rcases h with ⟨rfl, rfl⟩ | ⟨rfl, rfl⟩ | ⟨rfl, rfl⟩ | ⟨rfl, rfl⟩ | ⟨rfl, rfl⟩ | ⟨rfl, rfl⟩ | ⟨rfl, rfl⟩ | ⟨rfl, rfl⟩ | ⟨rfl, rfl⟩ | ⟨rfl, rfl⟩ | ⟨rfl, rfl⟩ | ⟨rfl, rfl⟩
      · omega
      · have := e1 k; omega
      · exact ⟨i, j + 1, k, by omega, by omega, by omega, rfl, Or.inl ⟨hi, rfl⟩⟩
      · exact ⟨i, j, k, by omega, by omega, by omega, rfl, Or.inr (Or.inl ⟨hj, rfl⟩)⟩
      · omega
      · have := e1 (k + 1); omega
      · exact ⟨i, j + 1, k + 1, by omega, by omega, by omega, rfl, Or.inl ⟨hi, rfl⟩⟩
      · exact ⟨i, j, k + 1, by omega, by omega, by omega, rfl, Or.inr (Or.inl ⟨hj, rfl⟩)⟩
      · have := e2 j; omega
      · have := e2 j; omega
      · have := e2 (j + 1); omega
      · have := e2 (j + 1); omega
  · intro hn
    rw [mem_lines _ _ _ (neighbours_lt _ (by simp) _ _ hn)]
    obtain ⟨i, j, k, hi, hj, hk, rfl, h⟩ := (neighbours_three r0 r1 r2 a b).1 hn
    clear hn
    have hi' : ∃ i', i' + 1 < r0 ∧ (i = i' ∨ i = i' + 1) := by
      by_cases h : i + 1 < r0
      · exact ⟨i, h, Or.inl rfl⟩
      · exact ⟨i - 1, by omega, Or.inr (by omega)⟩
    have hj' : ∃ j', j' + 1 < r1 ∧ (j = j' ∨ j = j' + 1) := by
      by_cases h : j + 1 < r1
      · exact ⟨j, h, Or.inl rfl⟩
      · exact ⟨j - 1, by omega, Or.inr (by omega)⟩
    have hk' : ∃ k', k' + 1 < r2 ∧ (k = k' ∨ k = k' + 1) := by
      by_cases h : k + 1 < r2
      · exact ⟨k, h, Or.inl rfl⟩
      · exact ⟨k - 1, by omega, Or.inr (by omega)⟩
    obtain ⟨i', hi', hii⟩ := hi'
    obtain ⟨j', hj', hjj⟩ := hj'
    obtain ⟨k', hk', hkk⟩ := hk'
    rcases h with ⟨h, rfl⟩ | ⟨h, rfl⟩ | ⟨h, rfl⟩
    · refine ⟨_, (mem_hexaVolumes r0 r1 r2 _).2 ⟨i, j', k', h, hj', hk', rfl⟩, ?_⟩
      rcases hjj with rfl | rfl <;> rcases hkk with rfl | rfl <;> simp [cellLines]
    · refine ⟨_, (mem_hexaVolumes r0 r1 r2 _).2 ⟨i', j, k', hi', h, hk', rfl⟩, ?_⟩
      rcases hii with rfl | rfl <;> rcases hkk with rfl | rfl <;> simp [cellLines]
    · refine ⟨_, (mem_hexaVolumes r0 r1 r2 _).2 ⟨i', j', k, hi', hj', h, rfl⟩, ?_⟩
      rcases hii with rfl | rfl <;> rcases hjj with rfl | rfl <;> simp [cellLines]

theorem edge_lines (verts : List P) (n : ℕ) (a b : ℕ) : (a, b) ∈ lines ⟨verts, rangeToEdges n⟩ ↔ Spec.Neighbours [n] a b := by
  rw [neighbours_one]
  constructor
  · intro h
    have hle := lines_le _ _ _ h
    obtain ⟨c, hc, h⟩ := lines_sub _ _ _ h
    simp only [rangeToEdges, List.mem_map, List.mem_range] at hc
    obtain ⟨k, hk, rfl⟩ := hc
    simp only [cellLines, List.mem_cons, Prod.mk.injEq, List.not_mem_nil, or_false] at h
    omega
  · rintro ⟨rfl, h⟩
    rw [mem_lines _ _ _ (by omega)]
    exact ⟨[a, a + 1], by simp only [rangeToEdges, List.mem_map, List.mem_range]; exact ⟨a, by omega, rfl⟩, by simp [cellLines]⟩

/-! ### Results -/

/-- C141: the control mesh of a spline with one, two or three parametric directions, at least two control points in each of them: its vertices are the control points in order, and its lines are exactly those between
neighbours of the control net, each once. -/
theorem control_mesh_lines [Field K] [LinearOrder K] [IsStrictOrderedRing K] {s : Spline K (List K)} (hs : ValidSpline s) (hl : (netSize s).length = 1 ∨ (netSize s).length = 2 ∨ (netSize s).length = 3)
    (h2 : ∀ n ∈ netSize s, 2 ≤ n) :
    ∃ m, controlMesh s = some m ∧ m.vertices = s.controlPoints ∧ (lines m).Nodup ∧ ∀ a b, (a, b) ∈ lines m ↔ Spec.Neighbours (netSize s) a b := by
  have hnd : ∀ m : Mesh (List K), (lines m).Nodup := fun m => List.nodup_dedup _
  unfold controlMesh
  rcases hl with hl | hl | hl
  · obtain ⟨n, hn⟩ := List.length_eq_one_iff.1 hl
    have hc : s.controlPoints.length = n := by have := hs.net; rw [hn] at this; simpa using this
    rw [hn, hc]
    exact ⟨_, rfl, rfl, hnd _, edge_lines _ n⟩
  · obtain ⟨r0, r1, hn⟩ := List.length_eq_two.1 hl
    rw [hn] at h2 ⊢
    exact ⟨_, rfl, rfl, hnd _, quad_lines _ r0 r1 (h2 r0 (by simp)) (h2 r1 (by simp))⟩
  · obtain ⟨r0, r1, r2, hn⟩ := List.length_eq_three.1 hl
    rw [hn] at h2 ⊢
    exact ⟨_, rfl, rfl, hnd _, hexa_lines _ r0 r1 r2 (h2 r0 (by simp)) (h2 r1 (by simp)) (h2 r2 (by simp))⟩

/-- C141: splines with no or more than three parametric directions have no control mesh. -/
theorem control_mesh_none (s : Spline K P) (h : (netSize s).length = 0 ∨ 3 < (netSize s).length) : controlMesh s = none := by
  unfold controlMesh
  split
  · rename_i h'; rw [h'] at h; simp at h
  · rename_i h'; rw [h'] at h; simp at h
  · rename_i h'; rw [h'] at h; simp at h
  · rfl

theorem cellLines_shift (c : List ℕ) (o : ℕ) : cellLines (c.map fun v => v + o) = (cellLines c).map fun e => (e.1 + o, e.2 + o) := by
  match c with
  | [] => rfl
  | [_] => rfl
  | [_, _] => rfl
  | [_, _, _] => rfl
  | [_, _, _, _] => rfl
  | [_, _, _, _, _] => rfl
  | [_, _, _, _, _, _] => rfl
  | [_, _, _, _, _, _, _] => rfl
  | [_, _, _, _, _, _, _, _] => rfl
  | _ :: _ :: _ :: _ :: _ :: _ :: _ :: _ :: _ :: _ => rfl

theorem lines_concat_cons (m : Mesh P) (ms : List (Mesh P)) (a b : ℕ) :
    (a, b) ∈ lines (concat (m :: ms)) ↔ (a, b) ∈ lines m ∨ ∃ a' b', (a', b') ∈ lines (concat ms) ∧ a = a' + m.vertices.length ∧ b = b' + m.vertices.length := by
  unfold lines
  simp only [concat, List.mem_dedup, List.flatMap_append, List.map_append, List.mem_append]
  refine or_congr_right ?_
  simp only [List.mem_map, List.mem_flatMap, List.flatMap_map, cellLines_shift, Prod.exists, Prod.mk.injEq]
  constructor
  · rintro ⟨x, y, ⟨c, hc, x', y', h, rfl, rfl⟩, rfl, rfl⟩
    exact ⟨min x' y', max x' y', ⟨x', y', ⟨c, hc, h⟩, rfl, rfl⟩, by omega, by omega⟩
  · rintro ⟨a', b', ⟨x', y', ⟨c, hc, h⟩, rfl, rfl⟩, rfl, rfl⟩
    exact ⟨_, _, ⟨c, hc, x', y', h, rfl, rfl⟩, by omega, by omega⟩

/-- C141 for multipatches of splines with the same number of parametric directions: the vertices are the control points of the patches one after another, and the lines are exactly those between neighbours of the
control net of one patch, numbered from its first control point on. -/
theorem multipatch_control_mesh_lines [Field K] [LinearOrder K] [IsStrictOrderedRing K] (patches : List (Spline K (List K)))
    (h : ∀ s ∈ patches, ValidSpline s ∧ ((netSize s).length = 1 ∨ (netSize s).length = 2 ∨ (netSize s).length = 3) ∧ ∀ n ∈ netSize s, 2 ≤ n) :
    ∃ m, multipatchControlMesh patches = some m ∧ m.vertices = patches.flatMap (·.controlPoints) ∧ (lines m).Nodup ∧
      ∀ a b, (a, b) ∈ lines m ↔ ∃ (i : ℕ) (s : Spline K (List K)) (a' b' : ℕ), patches[i]? = some s ∧ Spec.Neighbours (netSize s) a' b' ∧
        a = ((patches.take i).map (·.controlPoints.length)).sum + a' ∧ b = ((patches.take i).map (·.controlPoints.length)).sum + b' := by
  suffices ∃ ms, patches.mapM controlMesh = some ms ∧ (concat ms).vertices = patches.flatMap (·.controlPoints) ∧
      ∀ a b, (a, b) ∈ lines (concat ms) ↔ ∃ (i : ℕ) (s : Spline K (List K)) (a' b' : ℕ), patches[i]? = some s ∧ Spec.Neighbours (netSize s) a' b' ∧
        a = ((patches.take i).map (·.controlPoints.length)).sum + a' ∧ b = ((patches.take i).map (·.controlPoints.length)).sum + b' by
    obtain ⟨ms, e, hv, hm⟩ := this
    exact ⟨concat ms, by rw [multipatchControlMesh, e]; rfl, hv, List.nodup_dedup _, hm⟩
  induction patches with
  | nil => exact ⟨[], rfl, rfl, fun a b => by simp [lines, concat]⟩
  | cons s patches ih =>
    obtain ⟨ms, e, hv, hm⟩ := ih fun t ht => h t (by simp [ht])
    obtain ⟨hs, hl, h2⟩ := h s (by simp)
    obtain ⟨m, e1, v1, -, l1⟩ := control_mesh_lines hs hl h2
    refine ⟨m :: ms, by rw [List.mapM_cons, e1, e]; rfl, by simp only [concat, v1, hv, List.flatMap_cons], fun a b => ?_⟩
    rw [lines_concat_cons, l1, v1]
    constructor
    · rintro (h | ⟨a', b', h, rfl, rfl⟩)
      · exact ⟨0, s, a, b, rfl, h, by simp, by simp⟩
      · obtain ⟨i, t, x, y, ht, hn, rfl, rfl⟩ := (hm a' b').1 h
        exact ⟨i + 1, t, x, y, by simpa using ht, hn, by simp; omega, by simp; omega⟩
    · rintro ⟨i, t, x, y, ht, hn, rfl, rfl⟩
      cases i with
      | zero =>
        simp only [List.getElem?_cons_zero, Option.some.injEq] at ht
        subst ht
        exact Or.inl (by simpa using hn)
      | succ i =>
        exact Or.inr ⟨_, _, (hm _ _).2 ⟨i, t, x, y, by simpa using ht, hn, rfl, rfl⟩, by simp; omega, by simp; omega⟩

/-- C141 fails for a surface that has one control point in a direction (degree zero) and several in the other: these are neighbours, but the control mesh has no lines. -/
theorem control_mesh_flat_violates (s : Spline K P) (r0 r1 : ℕ) (h : netSize s = [r0, r1]) (h1 : (r0 = 1 ∧ 2 ≤ r1) ∨ (r1 = 1 ∧ 2 ≤ r0)) :
    ∃ m, controlMesh s = some m ∧ lines m = [] ∧ ∃ a b, Spec.Neighbours (netSize s) a b := by
  unfold controlMesh
  rw [h]
  rcases h1 with ⟨rfl, h1⟩ | ⟨rfl, h1⟩
  · exact ⟨_, rfl, by simp [lines, quadFaces], 0, 1, (neighbours_two 1 r1 0 1).2 ⟨0, 0, by omega, by omega, rfl, Or.inr ⟨by omega, rfl⟩⟩⟩
  · exact ⟨_, rfl, by simp [lines, quadFaces], 0, 1, (neighbours_two r0 1 0 1).2 ⟨0, 0, by omega, by omega, rfl, Or.inl ⟨by omega, rfl⟩⟩⟩

/-- Non-vacuity: the control mesh of a bilinear patch. -/
example : ∃ m, controlMesh (⟨[1, 1], none, none, [[0, 0], [1, 0], [0, 1], [1, 1]]⟩ : Spline ℚ (List ℚ)) = some m ∧ m.elements = [[0, 1, 3, 2]] ∧ (lines m).Nodup ∧
    ∀ a b, (a, b) ∈ lines m ↔ Spec.Neighbours [2, 2] a b := by
  obtain ⟨m, e, -, hn, hm⟩ := control_mesh_lines (s := (⟨[1, 1], none, none, [[0, 0], [1, 0], [0, 1], [1, 1]]⟩ : Spline ℚ (List ℚ)))
    ⟨by simp, by
      intro d hd kv hkv
      simp only [Splinepy.Spec.directions, List.map_cons, List.map_nil, List.mem_cons, List.not_mem_nil, or_false] at hd
      rcases hd with rfl | rfl <;> exact absurd hkv (by simp), by decide, by simp⟩ (by decide) (by decide)
  exact ⟨m, e, by cases e; decide, hn, hm⟩

end Splinepy.ControlMesh
