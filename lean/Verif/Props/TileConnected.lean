import Verif.Props.TileArmadillo

/-!
C110: the patches of a tile hang together through common faces. `Armadillo`; the other tiles are in `TileExtrude.lean`, `TileInverse.lean` and `TileConnectedMore.lean`.
-/

namespace Splinepy.Tiles

open Spec

/-- all numbers are below `N`, in a face and in all readings of it -/
def small (N : ℕ) (P : Patch ℕ) : Bool :=
  (sides P).all fun f => (f.2.all fun x => x.all fun n => decide (n < N)) && (readings f).all fun g => g.2.all fun x => x.all fun n => decide (n < N)

theorem rows_inj {K : Type} {val : ℕ → K} {N : ℕ} (inj : ∀ a < N, ∀ b < N, val a = val b → a = b) : ∀ l m : List (List ℕ), (∀ x ∈ l, ∀ n ∈ x, n < N) → (∀ x ∈ m, ∀ n ∈ x, n < N) →
    l.map (List.map val) = m.map (List.map val) → l = m := by
  have one : ∀ l m : List ℕ, (∀ n ∈ l, n < N) → (∀ n ∈ m, n < N) → l.map val = m.map val → l = m := by
    intro l
    induction l with
    | nil => intro m _ _ h; simpa using h.symm
    | cons a l ih =>
      intro m hl hm h
      cases m with
      | nil => simp at h
      | cons b m =>
        simp only [List.map_cons, List.cons.injEq] at h
        rw [inj a (hl a (by simp)) b (hm b (by simp)) h.1, ih m (fun n hn => hl n (by simp [hn])) (fun n hn => hm n (by simp [hn])) h.2]
  intro l
  induction l with
  | nil => intro m _ _ h; simpa using h.symm
  | cons a l ih =>
    intro m hl hm h
    cases m with
    | nil => simp at h
    | cons b m =>
      simp only [List.map_cons, List.cons.injEq] at h
      rw [one a b (hl a (by simp)) (hm b (by simp)) h.1, ih m (fun n hn => hl n (by simp [hn])) (fun n hn => hm n (by simp [hn])) h.2]

/-- if different numbers have different values, only patches which share a face as patches of numbers do -/
theorem shares_of_decode {K : Type} {val : ℕ → K} {N : ℕ} (inj : ∀ a < N, ∀ b < N, val a = val b → a = b) {P Q : Patch ℕ} (hP : small N P = true) (hQ : small N Q = true)
    (h : Shares (decodePatch val P) (decodePatch val Q)) : Shares P Q := by
  simp only [small, List.all_eq_true, Bool.and_eq_true, decide_eq_true_eq] at hP hQ
  obtain ⟨f, hf, g, hg, hr⟩ := h
  rw [sides_decode] at hf hg
  obtain ⟨f, hf', rfl⟩ := List.mem_map.1 hf
  obtain ⟨g, hg', rfl⟩ := List.mem_map.1 hg
  rw [readings_decode] at hr
  obtain ⟨r, hr, e⟩ := List.mem_map.1 hr
  simp only [decodeSide, Prod.mk.injEq] at e
  have := rows_inj inj r.2 g.2 ((hP f hf').2 r hr) (hQ g hg').1 e.2
  have e' : r = g := Prod.ext e.1 this
  exact ⟨f, hf', g, hg', e' ▸ hr⟩

/-- a patch which shares no face with another one is not reached from the others -/
theorem not_connected {K : Type} {t : List (Patch K)} (k : ℕ) (hk : k < t.length) (i : ℕ) (hi : i < t.length) (hik : i ≠ k) (h : ∀ j, Adjacent t k j → j = k) : ¬ Connected t := by
  intro hc
  have : ∀ j, Relation.ReflTransGen (Adjacent t) k j → j = k := by
    intro j hj
    induction hj with
    | refl => rfl
    | tail _ h1 ih => subst ih; exact h _ h1
  exact hik (this i (hc k i hk hi))

section
variable {K : Type} [Field K] [LinearOrder K] [IsStrictOrderedRing K]

/-- how the patches of the tiles of `Armadillo` hang together -/
def armadilloTrees : List (List (Patch ℕ) × List (ℕ × ℕ)) := [
  (armadilloCode, [(1, 0), (6, 1), (7, 0), (10, 6), (11, 6), (14, 0), (17, 0), (2, 7), (3, 2), (4, 3), (5, 6), (8, 11), (9, 10), (12, 2), (13, 2), (15, 4), (16, 4)]),
  (armadilloCloseXMaxCode, [(12, 0), (13, 12), (16, 0), (17, 13), (1, 16), (2, 16), (3, 16), (4, 17), (5, 17), (6, 17), (7, 12), (8, 1), (9, 8), (10, 2), (11, 12), (14, 3), (15, 8)]),
  (armadilloCloseYMinCode, [(12, 0), (13, 12), (16, 0), (17, 13), (1, 16), (2, 16), (3, 16), (4, 17), (5, 17), (6, 17), (7, 12), (8, 1), (9, 8), (10, 2), (11, 12), (14, 3), (15, 8)]),
  (armadilloCloseYMaxCode, [(12, 0), (13, 12), (14, 13), (16, 0), (1, 16), (2, 16), (3, 14), (4, 14), (7, 12), (8, 1), (9, 14), (10, 2), (11, 12), (15, 8), (17, 4), (5, 10), (6, 8)]),
  (armadilloCloseZMinCode, [(12, 0), (13, 12), (16, 0), (17, 13), (1, 16), (2, 16), (3, 16), (4, 17), (5, 17), (6, 17), (7, 12), (8, 1), (9, 8), (10, 2), (11, 12), (14, 3), (15, 8)]),
  (armadilloCloseZMaxCode, [(12, 0), (13, 12), (16, 0), (17, 13), (1, 16), (2, 16), (3, 16), (4, 17), (5, 17), (6, 17), (7, 12), (8, 1), (9, 8), (10, 2), (11, 12), (14, 3), (15, 8)])]

theorem armadilloTrees_span : ∀ e ∈ armadilloTrees, spans e.1 [0] e.2 = true := by decide +kernel

/-- `Armadillo`, ordinary tile and all closing tiles except for the one which closes the face `x_min`. -/
theorem armadillo_connected_partial (contact : K) (closure : Option String) (hc : closure ≠ some "x_min") (p : Option (Mat K)) (s : Option (List (Mat K))) (T : Tile K)
    (h : createArmadillo contact closure p s = some T) : Connected T.splines := by
  obtain ⟨w, -, -, -, c, hcc, e⟩ := armadillo_cases h
  rw [e]
  refine connected_decode _ ?_
  have key : ∀ l, (c, l) ∈ armadilloTrees → Connected c := fun l hl => connected_of_spans l (armadilloTrees_span _ hl)
  cases closure with
  | none =>
    simp only [armadilloCodes, Option.some.injEq] at hcc
    subst hcc
    exact key _ (List.mem_cons_self ..)
  | some cl =>
    simp only [armadilloCodes] at hcc
    split_ifs at hcc with h1 <;> rw [Option.some.injEq] at hcc
    · exact absurd (by rw [h1]) hc
    all_goals
      subst hcc
      first
        | exact key _ (List.getElem_mem (l := armadilloTrees) (n := 1) (by decide))
        | exact key _ (List.getElem_mem (l := armadilloTrees) (n := 2) (by decide))
        | exact key _ (List.getElem_mem (l := armadilloTrees) (n := 3) (by decide))
        | exact key _ (List.getElem_mem (l := armadilloTrees) (n := 4) (by decide))
        | exact key _ (List.getElem_mem (l := armadilloTrees) (n := 5) (by decide))

example : (createArmadillo (3 / 10 : ℚ) (some "x_max") (some [[2 / 5]]) none).isSome = true := by decide +kernel

theorem armadillo_inj {w h i : K} (hw : 0 < w ∧ w < 1 / 2) (hh : 0 < h ∧ h < 1 / 2) (hi : 0 < i) (hiw : i < w) (hih : i < h) (hne : w ≠ h) :
    ∀ a < 8, ∀ b < 8, look (armadilloTable w h i) a = look (armadilloTable w h i) b → a = b := by
  intro a ha b hb hab
  by_contra hne'
  have ea : a = 0 ∨ a = 1 ∨ a = 2 ∨ a = 3 ∨ a = 4 ∨ a = 5 ∨ a = 6 ∨ a = 7 := by omega
  have eb : b = 0 ∨ b = 1 ∨ b = 2 ∨ b = 3 ∨ b = 4 ∨ b = 5 ∨ b = 6 ∨ b = 7 := by omega
  rcases ea with rfl | rfl | rfl | rfl | rfl | rfl | rfl | rfl <;> rcases eb with rfl | rfl | rfl | rfl | rfl | rfl | rfl | rfl <;> first
    | exact hne' rfl
    | (simp only [look, armadilloTable, List.getD_cons_zero, List.getD_cons_succ] at hab
       first
        | linarith [hw.1, hw.2, hh.1, hh.2]
        | exact hne (by linarith))

theorem x_min_codes : (armadilloCloseXMinCode.all fun P => small 8 P) = true ∧ ∀ j < 18, adjacentB armadilloCloseXMinCode 12 j = true → j = 12 := by
  refine ⟨by decide +kernel, by decide +kernel⟩

/-- The tile of `Armadillo` which closes the face `x_min` falls apart: the patch on the closed face has no face in common with any other patch (its outer face is turned by a quarter
against its inner face). This holds for all parameters, unless the wall thickness equals half the contact length. -/
theorem armadillo_x_min_connected_violates (contact w : K) (h1 : 0 < contact) (h2 : contact < 99 / 100) (hw : 0 < w) (hw' : w < 1 / 2) (hne : w ≠ contact * (1 / 2)) :
    ∃ T, createArmadillo contact (some "x_min") (some [[w]]) none = some T ∧ ¬ Connected T.splines := by
  have acc : createArmadillo contact (some "x_min") (some [[w]]) none = some ⟨armadilloValues armadilloCloseXMin contact w, none⟩ := by
    simp [createArmadillo, h1, h2, checkParams, within, armadilloClosing, entry, hw]
    simpa using hw'
  refine ⟨_, acc, ?_⟩
  obtain ⟨v, hv, hh, hi, c, hc, e⟩ := armadillo_cases acc
  have hcv : contact * w < contact * (1 / 2) := mul_lt_mul_of_pos_left hw' h1
  have hcw : contact * w < w := by nlinarith
  have inj := armadillo_inj ⟨hw, hw'⟩ hh (mul_pos h1 hw) hcw hcv hne
  obtain ⟨s1, s2⟩ := x_min_codes
  rw [show (⟨armadilloValues armadilloCloseXMin contact w, none⟩ : Tile K).splines = armadilloCloseXMin 0 (1 / 2) 1 w (contact * (1 / 2)) (contact * w) from rfl, armadilloCloseXMin_code]
  have len : (decode (look (armadilloTable w (contact * (1 / 2)) (contact * w))) armadilloCloseXMinCode).length = 18 := by
    rw [decode, List.length_map]; decide +kernel
  refine not_connected 12 (by omega) 0 (by omega) (by omega) fun j hj => ?_
  obtain ⟨P, Q, hP, hQ, hs⟩ := hj
  simp only [decode, List.getElem?_map, Option.map_eq_some_iff] at hP hQ
  obtain ⟨P, hP, rfl⟩ := hP
  obtain ⟨Q, hQ, rfl⟩ := hQ
  simp only [List.all_eq_true] at s1
  have sP := s1 P (List.mem_of_getElem? hP)
  have sQ := s1 Q (List.mem_of_getElem? hQ)
  have hj : j < 18 := by
    have := (List.getElem?_eq_some_iff.1 hQ).1
    have l : armadilloCloseXMinCode.length = 18 := by decide +kernel
    omega
  refine s2 j hj ?_
  simp only [adjacentB, hP, hQ]
  simpa using hs.imp (shares_of_decode inj sP sQ) (shares_of_decode inj sQ sP)

example : (0 : ℚ) < 3 / 10 ∧ (3 / 10 : ℚ) < 99 / 100 ∧ (0 : ℚ) < 1 / 5 ∧ (1 / 5 : ℚ) < 1 / 2 ∧ (1 / 5 : ℚ) ≠ 3 / 10 * (1 / 2) := by norm_num

end

end Splinepy.Tiles
