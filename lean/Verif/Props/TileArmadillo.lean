import Verif.Lemma.TileCodes
import Verif.Model.TilesMore
import Verif.Props.TileCloses
import Verif.Spec.TileFaces

/-!
C76, C77, C78, C110 for `Armadillo` and `HollowOctagonExtrude`: they stay in the unit cube, neighbours meet, closing tiles close, the patches hang together.
-/

namespace Splinepy.Tiles

open Spec Splinepy.Spec

section
variable {K : Type} [Field K] [LinearOrder K] [IsStrictOrderedRing K]

/-- which tile of numbers belongs to a closure -/
def armadilloCodes : Option String → Option (List (Patch ℕ))
  | none => some armadilloCode
  | some c => if c = "x_min" then some armadilloCloseXMinCode else if c = "x_max" then some armadilloCloseXMaxCode else if c = "y_min" then some armadilloCloseYMinCode
    else if c = "y_max" then some armadilloCloseYMaxCode else if c = "z_max" then some armadilloCloseZMaxCode else if c = "z_min" then some armadilloCloseZMinCode else none

/-- a tile of `Armadillo` is one of seven tiles of numbers -/
theorem armadillo_cases {contact : K} {closure : Option String} {p : Option (Mat K)} {s : Option (List (Mat K))} {T : Tile K} (h : createArmadillo contact closure p s = some T) :
    ∃ w : K, (0 < w ∧ w < 1 / 2) ∧ (0 < contact * (1 / 2) ∧ contact * (1 / 2) < 1 / 2) ∧ (0 < contact * w ∧ contact * w < w) ∧
      ∃ c, armadilloCodes closure = some c ∧ T.splines = decode (look (armadilloTable w (contact * (1 / 2)) (contact * w))) c := by
  simp only [createArmadillo, Option.ite_none_right_eq_some, Bool.and_eq_true, decide_eq_true_eq] at h
  generalize p.getD (constant 1 1 (1 / 5)) = p at *
  obtain ⟨⟨⟨⟨⟨h1, h2⟩, h3⟩, h4⟩, h5⟩, h⟩ := h
  obtain ⟨a, rfl⟩ := params_one h4
  rw [within_iff] at h5
  have ha := h5 [a] (by simp) a (by simp)
  refine ⟨a, ha, ⟨by linarith, by linarith⟩, ⟨mul_pos h1 ha.1, by nlinarith [ha.1]⟩, ?_⟩
  simp only [entry, List.getD_cons_zero] at h
  cases closure with
  | none =>
    rw [Option.some.injEq] at h
    subst h
    exact ⟨_, rfl, armadillo_code _ _ _⟩
  | some cl =>
    simp only [armadilloClosing, Option.map_eq_some_iff] at h
    obtain ⟨t, ht, rfl⟩ := h
    simp only [armadilloCodes]
    split_ifs at ht ⊢ <;> rw [Option.some.injEq] at ht <;> subst ht
    · exact ⟨_, rfl, armadilloCloseXMin_code _ _ _⟩
    · exact ⟨_, rfl, armadilloCloseXMax_code _ _ _⟩
    · exact ⟨_, rfl, armadilloCloseYMin_code _ _ _⟩
    · exact ⟨_, rfl, armadilloCloseYMax_code _ _ _⟩
    · exact ⟨_, rfl, armadilloCloseZMax_code _ _ _⟩
    · exact ⟨_, rfl, armadilloCloseZMin_code _ _ _⟩

/-- the possible tiles of numbers -/
def armadilloAll : List (List (Patch ℕ)) :=
  [armadilloCode, armadilloCloseXMinCode, armadilloCloseXMaxCode, armadilloCloseYMinCode, armadilloCloseYMaxCode, armadilloCloseZMaxCode, armadilloCloseZMinCode]

theorem armadilloCodes_mem {closure : Option String} {c : List (Patch ℕ)} (h : armadilloCodes closure = some c) : c ∈ armadilloAll := by
  cases closure with
  | none => simp only [armadilloCodes, Option.some.injEq] at h; subst h; simp [armadilloAll]
  | some cl =>
    simp only [armadilloCodes] at h
    split_ifs at h <;> rw [Option.some.injEq] at h <;> subst h <;> simp [armadilloAll]

theorem armadillo_below : ∀ c ∈ armadilloAll, below 8 c = true := by decide +kernel

/-- the values of the table: in the unit interval, and only the first two of them on its boundary -/
theorem armadillo_table {w h i : K} (hw : 0 < w ∧ w < 1 / 2) (hh : 0 < h ∧ h < 1 / 2) (hi : 0 < i ∧ i < 1 / 2) :
    ∀ n < 8, (0 ≤ look (armadilloTable w h i) n ∧ look (armadilloTable w h i) n ≤ 1) ∧ (look (armadilloTable w h i) n = 0 ↔ n = 0) ∧ (look (armadilloTable w h i) n = 1 ↔ n = 1) := by
  obtain ⟨w1, w2⟩ := hw
  obtain ⟨h1, h2⟩ := hh
  obtain ⟨i1, i2⟩ := hi
  intro n hn
  have e : n = 0 ∨ n = 1 ∨ n = 2 ∨ n = 3 ∨ n = 4 ∨ n = 5 ∨ n = 6 ∨ n = 7 := by omega
  rcases e with rfl | rfl | rfl | rfl | rfl | rfl | rfl | rfl <;>
    simp only [look, armadilloTable, List.getD_cons_zero, List.getD_cons_succ] <;>
    refine ⟨⟨by linarith, by linarith⟩, ?_, ?_⟩ <;> first | trivial | (constructor <;> intro e <;> first | rfl | omega | (exfalso; linarith))

/-- `Armadillo`, ordinary and closing tiles, stays in the unit cube. -/
theorem armadillo_in_unit_cube (contact : K) (closure : Option String) (p : Option (Mat K)) (s : Option (List (Mat K))) (T : Tile K)
    (h : createArmadillo contact closure p s = some T) : InUnitCube T.splines := by
  obtain ⟨w, hw, hh, hi, c, hc, e⟩ := armadillo_cases h
  rw [e]
  exact inUnitCube_decode (armadillo_below c (armadilloCodes_mem hc)) fun n hn => (armadillo_table hw hh ⟨hi.1, hi.2.trans hw.2⟩ n hn).1

example : (createArmadillo (3 / 10 : ℚ) none none none).isSome = true ∧ (createArmadillo (3 / 10 : ℚ) (some "y_max") (some [[2 / 5]]) none).isSome = true := by decide +kernel

/-- the pairs of tiles which may be neighbours in a direction -/
def armadilloPairs (axis : ℕ) : List (List (Patch ℕ) × List (Patch ℕ)) :=
  match axis with
  | 0 => [(armadilloCode, armadilloCode), (armadilloCode, armadilloCloseXMaxCode), (armadilloCloseXMinCode, armadilloCode), (armadilloCloseXMinCode, armadilloCloseXMaxCode),
      (armadilloCloseYMinCode, armadilloCloseYMinCode), (armadilloCloseYMaxCode, armadilloCloseYMaxCode), (armadilloCloseZMaxCode, armadilloCloseZMaxCode),
      (armadilloCloseZMinCode, armadilloCloseZMinCode)]
  | 1 => [(armadilloCode, armadilloCode), (armadilloCode, armadilloCloseYMaxCode), (armadilloCloseYMinCode, armadilloCode), (armadilloCloseYMinCode, armadilloCloseYMaxCode),
      (armadilloCloseXMinCode, armadilloCloseXMinCode), (armadilloCloseXMaxCode, armadilloCloseXMaxCode), (armadilloCloseZMaxCode, armadilloCloseZMaxCode),
      (armadilloCloseZMinCode, armadilloCloseZMinCode)]
  | _ => [(armadilloCode, armadilloCode), (armadilloCode, armadilloCloseZMaxCode), (armadilloCloseZMinCode, armadilloCode), (armadilloCloseZMinCode, armadilloCloseZMaxCode),
      (armadilloCloseXMinCode, armadilloCloseXMinCode), (armadilloCloseXMaxCode, armadilloCloseXMaxCode), (armadilloCloseYMinCode, armadilloCloseYMinCode),
      (armadilloCloseYMaxCode, armadilloCloseYMaxCode)]

theorem armadillo_pairs {axis : ℕ} (ha : axis < 3) {c c' : Option String} (hn : Neighbours axis c c') {t u : List (Patch ℕ)} (ht : armadilloCodes c = some t)
    (hu : armadilloCodes c' = some u) : (t, u) ∈ armadilloPairs axis := by
  have same : ∀ s : String, armadilloCodes (some s) = some t → c = some s →
      s = "x_min" ∧ t = armadilloCloseXMinCode ∨ s = "x_max" ∧ t = armadilloCloseXMaxCode ∨ s = "y_min" ∧ t = armadilloCloseYMinCode ∨ s = "y_max" ∧ t = armadilloCloseYMaxCode ∨
      s = "z_max" ∧ t = armadilloCloseZMaxCode ∨ s = "z_min" ∧ t = armadilloCloseZMinCode := by
    intro s hs _
    simp only [armadilloCodes] at hs
    split_ifs at hs <;> rw [Option.some.injEq] at hs <;> subst hs <;> simp_all
  obtain rfl | rfl | rfl : axis = 0 ∨ axis = 1 ∨ axis = 2 := by omega
  all_goals
    simp only [Neighbours, List.getD_cons_zero, List.getD_cons_succ] at hn
    rcases hn with ⟨h1, h2⟩ | ⟨rfl, h1, h2⟩
    · rcases h1 with rfl | rfl <;> rcases h2 with rfl | rfl <;> simp [armadilloCodes] at ht hu <;> subst ht <;> subst hu <;> simp [armadilloPairs]
    · rw [ht, Option.some.injEq] at hu
      subst hu
      cases c with
      | none => simp [armadilloCodes] at ht; subst ht; simp [armadilloPairs]
      | some cl =>
        rcases same cl ht rfl with ⟨rfl, rfl⟩ | ⟨rfl, rfl⟩ | ⟨rfl, rfl⟩ | ⟨rfl, rfl⟩ | ⟨rfl, rfl⟩ | ⟨rfl, rfl⟩ <;> simp_all [armadilloPairs]

theorem armadillo_meets_codes : ∀ axis < 3, ∀ e ∈ armadilloPairs axis, tidy e.1 axis 8 = true ∧ tidy e.2 axis 8 = true ∧
    meetsHalf e.1 e.2 axis 1 0 [0, 1, 5, 6] = true ∧ meetsHalf e.2 e.1 axis 0 1 [0, 1, 5, 6] = true := by decide +kernel

/-- Neighbouring tiles of `Armadillo`, ordinary or closing, with the same contact length meet, whatever their wall thicknesses. -/
theorem armadillo_joins (contact : K) (axis : ℕ) (ha : axis < 3) (c c' : Option String) (hn : Neighbours axis c c') (p q : Option (Mat K)) (s s' : Option (List (Mat K)))
    (T U : Tile K) (hT : createArmadillo contact c p s = some T) (hU : createArmadillo contact c' q s' = some U) : Meets T.splines U.splines axis := by
  obtain ⟨w, hw, hh, hi, t, ht, e⟩ := armadillo_cases hT
  obtain ⟨w', hw', -, hi', u, hu, e'⟩ := armadillo_cases hU
  obtain ⟨t1, t2, m1, m2⟩ := armadillo_meets_codes axis ha (t, u) (armadillo_pairs ha hn ht hu)
  rw [e, e']
  refine meets_decode (fun n hn => (armadillo_table hw hh ⟨hi.1, hi.2.trans hw.2⟩ n hn).2.2) (fun n hn => (armadillo_table hw' hh ⟨hi'.1, hi'.2.trans hw'.2⟩ n hn).2.1)
    rfl rfl (fun n hn => ?_) t1 t2 m1 m2
  simp only [List.mem_cons, List.not_mem_nil, or_false] at hn
  rcases hn with rfl | rfl | rfl | rfl <;> rfl

example : Neighbours 1 (some "x_min") (some "x_min") ∧ Neighbours 2 none (some "z_max") ∧ (createArmadillo (3 / 10 : ℚ) (some "x_min") (some [[2 / 5]]) none).isSome = true ∧
    (createArmadillo (3 / 10 : ℚ) (some "z_max") (some [[1 / 10]]) none).isSome = true := by
  refine ⟨Or.inr ⟨rfl, by simp, by simp⟩, Or.inl ⟨Or.inl rfl, Or.inr rfl⟩, ?_, ?_⟩ <;> decide +kernel

omit [Field K] [LinearOrder K] [IsStrictOrderedRing K] in
theorem mem_decode {val : ℕ → K} {t : List (Patch ℕ)} (k : ℕ) {P : Patch ℕ} (h : t[k]? = some P) : decodePatch val P ∈ decode val t :=
  List.mem_map_of_mem (List.mem_of_getElem? h)

/-- a trilinear patch hits a point -/
theorem hit_111 {t : List (Patch K)} {a b c d e f g h x : List K} (hm : (⟨[1, 1, 1], [a, b, c, d, e, f, g, h]⟩ : Patch K) ∈ t) (u v w : K) (hu : 0 ≤ u ∧ u ≤ 1) (hv : 0 ≤ v ∧ v ≤ 1)
    (hw : 0 ≤ w ∧ w ≤ 1)
    (eq : ∀ j < x.length, (1 - w) * ((1 - u) * (1 - v) * a.getD j 0 + u * (1 - v) * b.getD j 0 + (1 - u) * v * c.getD j 0 + u * v * d.getD j 0) +
      w * ((1 - u) * (1 - v) * e.getD j 0 + u * (1 - v) * f.getD j 0 + (1 - u) * v * g.getD j 0 + u * v * h.getD j 0) = x.getD j 0) : Hit t x :=
  ⟨_, hm, [u, v, w], (inDomain_bezier _ _).2 ⟨rfl, by simpa using ⟨hu, hv, hw⟩⟩, fun j hj => by rw [point_111]; exact eq j hj⟩

theorem one_sub_mem {x : K} (h : 0 ≤ x ∧ x ≤ 1) : 0 ≤ 1 - x ∧ 1 - x ≤ 1 := ⟨by linarith [h.2], by linarith [h.1]⟩

/-- Whenever `Armadillo.create_tile` returns a tile for a closure, the tile closes the face named by it. -/
theorem armadillo_closes (contact : K) (closure : String) (p : Option (Mat K)) (s : Option (List (Mat K))) (T : Tile K)
    (h : createArmadillo contact (some closure) p s = some T) : ClosesNamed T.splines 3 closure := by
  obtain ⟨w, -, -, -, t, ht, e⟩ := armadillo_cases h
  generalize contact * (1 / 2) = hc at *
  generalize contact * w = i at *
  have z : (0 : K) ≤ 0 ∧ (0 : K) ≤ 1 := ⟨le_rfl, zero_le_one⟩
  have o : (0 : K) ≤ 1 ∧ (1 : K) ≤ 1 := ⟨zero_le_one, le_rfl⟩
  simp only [armadilloCodes] at ht
  rw [e]
  split_ifs at ht with h1 h2 h3 h4 h5 h6 <;> rw [Option.some.injEq] at ht <;> subst ht
  · subst h1
    refine ⟨(0, 0), rfl, by norm_num, closes_three fun x y v hx hy hv e0 => ?_⟩
    replace e0 : x = 0 := e0
    refine hit_111 (mem_decode 12 (P := ⟨[1, 1, 1], [[0, 1, 1], [7, 3, 4], [0, 0, 1], [7, 3, 3], [0, 1, 0], [7, 4, 4], [0, 0, 0], [7, 4, 3]]⟩) (by decide +kernel)) 0 (1 - y) (1 - v) z (one_sub_mem hy) (one_sub_mem hv) ?_
    intro j hj
    obtain rfl | rfl | rfl : j = 0 ∨ j = 1 ∨ j = 2 := by simp only [List.length_cons, List.length_nil] at hj; omega
    all_goals (simp [look, armadilloTable, e0]; try ring)
  · subst h2
    refine ⟨(0, 1), rfl, by norm_num, closes_three fun x y v hx hy hv e0 => ?_⟩
    replace e0 : x = 1 := e0
    refine hit_111 (mem_decode 8 (P := ⟨[1, 1, 1], [[2, 3, 4], [1, 0, 1], [2, 3, 3], [1, 0, 0], [2, 4, 4], [1, 1, 1], [2, 4, 3], [1, 1, 0]]⟩) (by decide +kernel)) 1 (1 - v) y o (one_sub_mem hv) hy ?_
    intro j hj
    obtain rfl | rfl | rfl : j = 0 ∨ j = 1 ∨ j = 2 := by simp only [List.length_cons, List.length_nil] at hj; omega
    all_goals (simp [look, armadilloTable, e0]; try ring)
  · subst h3
    refine ⟨(1, 0), rfl, by norm_num, closes_three fun x y v hx hy hv e0 => ?_⟩
    replace e0 : y = 0 := e0
    refine hit_111 (mem_decode 10 (P := ⟨[1, 1, 1], [[1, 0, 1], [4, 7, 4], [1, 0, 0], [4, 7, 3], [0, 0, 1], [3, 7, 4], [0, 0, 0], [3, 7, 3]]⟩) (by decide +kernel)) 0 (1 - v) (1 - x) z (one_sub_mem hv) (one_sub_mem hx) ?_
    intro j hj
    obtain rfl | rfl | rfl : j = 0 ∨ j = 1 ∨ j = 2 := by simp only [List.length_cons, List.length_nil] at hj; omega
    all_goals (simp [look, armadilloTable, e0]; try ring)
  · subst h4
    refine ⟨(1, 1), rfl, by norm_num, closes_three fun x y v hx hy hv e0 => ?_⟩
    replace e0 : y = 1 := e0
    refine hit_111 (mem_decode 14 (P := ⟨[1, 1, 1], [[4, 2, 4], [1, 1, 1], [4, 2, 3], [1, 1, 0], [3, 2, 4], [0, 1, 1], [3, 2, 3], [0, 1, 0]]⟩) (by decide +kernel)) 1 (1 - v) (1 - x) o (one_sub_mem hv) (one_sub_mem hx) ?_
    intro j hj
    obtain rfl | rfl | rfl : j = 0 ∨ j = 1 ∨ j = 2 := by simp only [List.length_cons, List.length_nil] at hj; omega
    all_goals (simp [look, armadilloTable, e0]; try ring)
  · subst h5
    refine ⟨(2, 1), rfl, by norm_num, closes_three fun x y v hx hy hv e0 => ?_⟩
    replace e0 : v = 1 := e0
    refine hit_111 (mem_decode 17 (P := ⟨[1, 1, 1], [[4, 4, 2], [3, 4, 2], [4, 3, 2], [3, 3, 2], [1, 1, 1], [0, 1, 1], [1, 0, 1], [0, 0, 1]]⟩) (by decide +kernel)) (1 - x) (1 - y) 1 (one_sub_mem hx) (one_sub_mem hy) o ?_
    intro j hj
    obtain rfl | rfl | rfl : j = 0 ∨ j = 1 ∨ j = 2 := by simp only [List.length_cons, List.length_nil] at hj; omega
    all_goals (simp [look, armadilloTable, e0]; try ring)
  · subst h6
    refine ⟨(2, 0), rfl, by norm_num, closes_three fun x y v hx hy hv e0 => ?_⟩
    replace e0 : v = 0 := e0
    refine hit_111 (mem_decode 16 (P := ⟨[1, 1, 1], [[1, 1, 0], [0, 1, 0], [1, 0, 0], [0, 0, 0], [4, 4, 7], [3, 4, 7], [4, 3, 7], [3, 3, 7]]⟩) (by decide +kernel)) (1 - x) (1 - y) 0 (one_sub_mem hx) (one_sub_mem hy) z ?_
    intro j hj
    obtain rfl | rfl | rfl : j = 0 ∨ j = 1 ∨ j = 2 := by simp only [List.length_cons, List.length_nil] at hj; omega
    all_goals (simp [look, armadilloTable, e0]; try ring)

example : (createArmadillo (3 / 10 : ℚ) (some "z_min") none none).isSome = true := by decide +kernel

end

end Splinepy.Tiles
