import Mathlib.Tactic.LinearCombination
import Verif.Props.TileJoins

/-!
C77, continued: `DoubleLattice`, `HollowOctagon` and `Snappy`.
-/

set_option linter.unusedSimpArgs false

namespace Splinepy.Tiles

open Spec

/-- Neighbours along `axis` whose common faces may be numbered from either end. -/
def Spec.JoinsEitherWay {K : Type} [Field K] (t u : List (Patch K)) (axis : ℕ) : Prop :=
  (∀ f ∈ faces t, OnPlane f axis 1 → ∃ g ∈ faces u, OnPlane g axis 0 ∧ (g.map (fun x => x.set axis 1) = f ∨ (g.map fun x => x.set axis 1).reverse = f)) ∧
  (∀ g ∈ faces u, OnPlane g axis 0 → ∃ f ∈ faces t, OnPlane f axis 1 ∧ (f.map (fun x => x.set axis 0) = g ∨ (f.map fun x => x.set axis 0).reverse = g))

section
variable {K : Type} [Field K] [LinearOrder K] [IsStrictOrderedRing K]

theorem joinsEitherWay_of_sides {t u : List (Patch K)} {axis : ℕ} {l m : List (List (List K))} (ht : SideIs t axis 1 l) (hu : SideIs u axis 0 m)
    (h1 : ∀ f ∈ l, ∃ g ∈ m, g.map (fun x => x.set axis 1) = f ∨ (g.map fun x => x.set axis 1).reverse = f)
    (h2 : ∀ g ∈ m, ∃ f ∈ l, f.map (fun x => x.set axis 0) = g ∨ (f.map fun x => x.set axis 0).reverse = g) : JoinsEitherWay t u axis := by
  constructor
  · intro f hf hp
    obtain ⟨g, hg, e⟩ := h1 f ((ht f).1 ⟨hf, hp⟩)
    exact ⟨g, ((hu g).2 hg).1, ((hu g).2 hg).2, e⟩
  · intro g hg hp
    obtain ⟨f, hf, e⟩ := h2 g ((hu g).1 ⟨hg, hp⟩)
    exact ⟨f, ((ht f).2 hf).1, ((ht f).2 hf).2, e⟩

/-- a value strictly between the two sides -/
theorem between {x : K} (h : 0 < x ∧ x < 1) : ¬(x = 1) ∧ ¬(x = 0) := ⟨fun e => by linarith [h.2], fun e => by linarith [h.1]⟩

/-! ### `DoubleLattice` -/

set_option maxHeartbeats 4000000 in
theorem double_lattice_sides (a02 a03 a04 a05 a06 a07 a08 a09 a10 : K) (h2 : 0 < a02 ∧ a02 < 1) (h3 : 0 < a03 ∧ a03 < 1) (h4 : 0 < a04 ∧ a04 < 1) (h5 : 0 < a05 ∧ a05 < 1)
    (h6 : 0 < a06 ∧ a06 < 1) (h7 : 0 < a07 ∧ a07 < 1) (h8 : 0 < a08 ∧ a08 < 1) (h9 : 0 < a09 ∧ a09 < 1) (h10 : 0 < a10 ∧ a10 < 1) :
    SideIs (doubleLattice 0 a02 a03 a04 a05 a06 a07 a08 a09 a10 1) 0 0 [[[0, 0], [0, a04]], [[0, a04], [0, a08]], [[0, a08], [0, 1]]] ∧
    SideIs (doubleLattice 0 a02 a03 a04 a05 a06 a07 a08 a09 a10 1) 0 1 [[[1, 0], [1, a04]], [[1, a04], [1, a08]], [[1, a08], [1, 1]]] ∧
    SideIs (doubleLattice 0 a02 a03 a04 a05 a06 a07 a08 a09 a10 1) 1 0 [[[0, 0], [a04, 0]], [[a04, 0], [a08, 0]], [[a08, 0], [1, 0]]] ∧
    SideIs (doubleLattice 0 a02 a03 a04 a05 a06 a07 a08 a09 a10 1) 1 1 [[[0, 1], [a04, 1]], [[a04, 1], [a08, 1]], [[a08, 1], [1, 1]]] := by
  unfold doubleLattice
  refine ⟨?_, ?_, ?_, ?_⟩ <;>
    side [between h2, between h3, between h4, between h5, between h6, between h7, between h8, between h9, between h10]

/-- Neighbouring tiles of `DoubleLattice` meet, whatever their parameters. -/
theorem double_lattice_joins (sqrt2 contact : K) (hs : 0 < sqrt2) (axis : ℕ) (ha : axis < 2) (c c' : Option String) (p q : Mat K)
    (s s' : Option (List (Mat K))) (T U : Tile K) (hT : createDoubleLattice sqrt2 contact c (some p) s = some T)
    (hU : createDoubleLattice sqrt2 contact c' (some q) s' = some U) : Joins T.splines U.splines axis := by
  have key : ∀ (c : Option String) (p : Mat K) (s : Option (List (Mat K))) (T : Tile K), createDoubleLattice sqrt2 contact c (some p) s = some T →
      SideIs T.splines 0 0 [[[0, 0], [0, (1 - contact) * (1 / 2)]], [[0, (1 - contact) * (1 / 2)], [0, (1 + contact) * (1 / 2)]], [[0, (1 + contact) * (1 / 2)], [0, 1]]] ∧
      SideIs T.splines 0 1 [[[1, 0], [1, (1 - contact) * (1 / 2)]], [[1, (1 - contact) * (1 / 2)], [1, (1 + contact) * (1 / 2)]], [[1, (1 + contact) * (1 / 2)], [1, 1]]] ∧
      SideIs T.splines 1 0 [[[0, 0], [(1 - contact) * (1 / 2), 0]], [[(1 - contact) * (1 / 2), 0], [(1 + contact) * (1 / 2), 0]], [[(1 + contact) * (1 / 2), 0], [1, 0]]] ∧
      SideIs T.splines 1 1 [[[0, 1], [(1 - contact) * (1 / 2), 1]], [[(1 - contact) * (1 / 2), 1], [(1 + contact) * (1 / 2), 1]], [[(1 + contact) * (1 / 2), 1], [1, 1]]] := by
    intro c p s T h
    simp only [createDoubleLattice, Option.getD_some, Option.ite_none_right_eq_some, Bool.and_eq_true, decide_eq_true_eq, Option.some.injEq] at h
    obtain ⟨⟨⟨⟨⟨h1, h2⟩, h4⟩, h3⟩, h5⟩, rfl⟩ := h
    obtain ⟨a, b, rfl⟩ := params_one_two h3
    rw [within_iff] at h4
    have ha := h4 [a, b] (by simp) a (by simp)
    have hb := h4 [a, b] (by simp) b (by simp)
    clear h3 h4 h5
    have hab : a + b * sqrt2 < 1 / 2 := by
      have hq : (0 : K) < 1 + sqrt2 := by linarith
      have h1 := ha.2
      have h2 := hb.2
      have e : 1 / 2 / (1 + sqrt2) + 1 / 2 / (1 + sqrt2) * sqrt2 = 1 / 2 := by field_simp
      have := mul_lt_mul_of_pos_right h2 hs
      linarith
    have pb := mul_pos hb.1 hs
    obtain ⟨ha, -⟩ := ha
    clear hb
    simp only [assemble, doubleLatticeTile, entry, List.getD_cons_zero, List.getD_cons_succ]
    exact double_lattice_sides _ _ _ _ _ _ _ _ _ ⟨by linarith, by linarith⟩ ⟨by linarith, by linarith⟩ ⟨by linarith, by linarith⟩ ⟨by linarith, by linarith⟩ ⟨by linarith, by linarith⟩
      ⟨by linarith, by linarith⟩ ⟨by linarith, by linarith⟩ ⟨by linarith, by linarith⟩ ⟨by linarith, by linarith⟩
  obtain ⟨-, a2, -, a4⟩ := key _ _ _ _ hT
  obtain ⟨b1, -, b3, -⟩ := key _ _ _ _ hU
  obtain rfl | rfl : axis = 0 ∨ axis = 1 := by omega
  · exact joins_of_sides a2 b1 (by simp) (by simp)
  · exact joins_of_sides a4 b3 (by simp) (by simp)

/-! ### `HollowOctagon` -/

theorem octagon_facts {x : K} (h : 0 < x ∧ x < 1 / 2) : (¬(x + 1 / 2 = 1) ∧ ¬(x + 1 / 2 = 0)) ∧ ¬(-x + 1 / 2 = 1) ∧ ¬(-x + 1 / 2 = 0) := by
  refine ⟨⟨fun e => ?_, fun e => ?_⟩, fun e => ?_, fun e => ?_⟩ <;> linarith [h.1, h.2]

set_option maxHeartbeats 4000000 in
theorem hollow_octagon_sides (v i o : K) (hv : 0 < v ∧ v < 1 / 2) (hi : 0 < i ∧ i < 1 / 2) (ho : 0 < o ∧ o < 1 / 2) :
    SideIs (hollowOctagon 0 (1 / 2) 1 v i o) 0 0 [[[0, 1 / 2 - o], [0, 1 / 2 + o]]] ∧ SideIs (hollowOctagon 0 (1 / 2) 1 v i o) 0 1 [[[1, 1 / 2 - o], [1, 1 / 2 + o]]] ∧
    SideIs (hollowOctagon 0 (1 / 2) 1 v i o) 1 0 [[[1 / 2 + o, 0], [1 / 2 - o, 0]]] ∧ SideIs (hollowOctagon 0 (1 / 2) 1 v i o) 1 1 [[[1 / 2 + o, 1], [1 / 2 - o, 1]]] := by
  unfold hollowOctagon
  refine ⟨?_, ?_, ?_, ?_⟩ <;> side [octagon_facts hv, octagon_facts hi, octagon_facts ho]

set_option maxHeartbeats 4000000 in
theorem hollow_octagon_x_sides (v i o : K) (hv : 0 < v ∧ v < 1 / 2) (hi : 0 < i ∧ i < 1 / 2) (ho : 0 < o ∧ o < 1 / 2) :
    (SideIs (hollowOctagonCloseXMin 0 (1 / 2) 1 v i o) 0 0 [[[0, 0], [0, 1]]] ∧
    SideIs (hollowOctagonCloseXMin 0 (1 / 2) 1 v i o) 0 1 [[[1, 1 / 2 - o], [1, 1 / 2 + o]]] ∧
    SideIs (hollowOctagonCloseXMin 0 (1 / 2) 1 v i o) 1 0 [[[1 / 2 + o, 0], [1 / 2 - o, 0]], [[0, 0], [1 / 2 - o, 0]]] ∧
    SideIs (hollowOctagonCloseXMin 0 (1 / 2) 1 v i o) 1 1 [[[1 / 2 + o, 1], [1 / 2 - o, 1]], [[0, 1], [1 / 2 - o, 1]]]) ∧
    (SideIs (hollowOctagonCloseXMax 0 (1 / 2) 1 v i o) 0 0 [[[0, 1 / 2 - o], [0, 1 / 2 + o]]] ∧
    SideIs (hollowOctagonCloseXMax 0 (1 / 2) 1 v i o) 0 1 [[[1, 0], [1, 1]]] ∧
    SideIs (hollowOctagonCloseXMax 0 (1 / 2) 1 v i o) 1 0 [[[1 / 2 + o, 0], [1 / 2 - o, 0]], [[1 / 2 + o, 0], [1, 0]]] ∧
    SideIs (hollowOctagonCloseXMax 0 (1 / 2) 1 v i o) 1 1 [[[1 / 2 + o, 1], [1 / 2 - o, 1]], [[1, 1], [1 / 2 + o, 1]]]) := by
  unfold hollowOctagonCloseXMin hollowOctagonCloseXMax
  refine ⟨⟨?_, ?_, ?_, ?_⟩, ?_, ?_, ?_, ?_⟩ <;> side [octagon_facts hv, octagon_facts hi, octagon_facts ho]

set_option maxHeartbeats 4000000 in
theorem hollow_octagon_y_sides (v i o : K) (hv : 0 < v ∧ v < 1 / 2) (hi : 0 < i ∧ i < 1 / 2) (ho : 0 < o ∧ o < 1 / 2) :
    (SideIs (hollowOctagonCloseYMin 0 (1 / 2) 1 v i o) 1 0 [[[1, 0], [0, 0]]] ∧
    SideIs (hollowOctagonCloseYMin 0 (1 / 2) 1 v i o) 1 1 [[[1 / 2 + o, 1], [1 / 2 - o, 1]]] ∧
    SideIs (hollowOctagonCloseYMin 0 (1 / 2) 1 v i o) 0 0 [[[0, 1 / 2 - o], [0, 0]], [[0, 1 / 2 - o], [0, 1 / 2 + o]]] ∧
    SideIs (hollowOctagonCloseYMin 0 (1 / 2) 1 v i o) 0 1 [[[1, 0], [1, 1 / 2 - o]], [[1, 1 / 2 - o], [1, 1 / 2 + o]]]) ∧
    (SideIs (hollowOctagonCloseYMax 0 (1 / 2) 1 v i o) 1 0 [[[1 / 2 + o, 0], [1 / 2 - o, 0]]] ∧
    SideIs (hollowOctagonCloseYMax 0 (1 / 2) 1 v i o) 1 1 [[[1, 1], [0, 1]]] ∧
    SideIs (hollowOctagonCloseYMax 0 (1 / 2) 1 v i o) 0 0 [[[0, 1 / 2 - o], [0, 1 / 2 + o]], [[0, 1 / 2 + o], [0, 1]]] ∧
    SideIs (hollowOctagonCloseYMax 0 (1 / 2) 1 v i o) 0 1 [[[1, 1 / 2 - o], [1, 1 / 2 + o]], [[1, 1 / 2 + o], [1, 1]]]) := by
  unfold hollowOctagonCloseYMin hollowOctagonCloseYMax
  refine ⟨⟨?_, ?_, ?_, ?_⟩, ?_, ?_, ?_, ?_⟩ <;> side [octagon_facts hv, octagon_facts hi, octagon_facts ho]

/-- the sides of all tiles of `HollowOctagon`; `o` is half of the contact length -/
theorem hollow_octagon_create_sides (contact : K) (closure : Option String) (p : Mat K) (s : Option (List (Mat K))) (T : Tile K)
    (h : createHollowOctagon contact closure (some p) s = some T) : ∃ o, o = contact * (1 / 2) ∧
    ((closure = none ∧ SideIs T.splines 0 0 [[[0, 1 / 2 - o], [0, 1 / 2 + o]]] ∧ SideIs T.splines 0 1 [[[1, 1 / 2 - o], [1, 1 / 2 + o]]] ∧
      SideIs T.splines 1 0 [[[1 / 2 + o, 0], [1 / 2 - o, 0]]] ∧ SideIs T.splines 1 1 [[[1 / 2 + o, 1], [1 / 2 - o, 1]]]) ∨
    (closure = some "x_min" ∧ SideIs T.splines 0 0 [[[0, 0], [0, 1]]] ∧ SideIs T.splines 0 1 [[[1, 1 / 2 - o], [1, 1 / 2 + o]]] ∧
      SideIs T.splines 1 0 [[[1 / 2 + o, 0], [1 / 2 - o, 0]], [[0, 0], [1 / 2 - o, 0]]] ∧ SideIs T.splines 1 1 [[[1 / 2 + o, 1], [1 / 2 - o, 1]], [[0, 1], [1 / 2 - o, 1]]]) ∨
    (closure = some "x_max" ∧ SideIs T.splines 0 0 [[[0, 1 / 2 - o], [0, 1 / 2 + o]]] ∧ SideIs T.splines 0 1 [[[1, 0], [1, 1]]] ∧
      SideIs T.splines 1 0 [[[1 / 2 + o, 0], [1 / 2 - o, 0]], [[1 / 2 + o, 0], [1, 0]]] ∧ SideIs T.splines 1 1 [[[1 / 2 + o, 1], [1 / 2 - o, 1]], [[1, 1], [1 / 2 + o, 1]]]) ∨
    (closure = some "y_min" ∧ SideIs T.splines 1 0 [[[1, 0], [0, 0]]] ∧ SideIs T.splines 1 1 [[[1 / 2 + o, 1], [1 / 2 - o, 1]]] ∧
      SideIs T.splines 0 0 [[[0, 1 / 2 - o], [0, 0]], [[0, 1 / 2 - o], [0, 1 / 2 + o]]] ∧ SideIs T.splines 0 1 [[[1, 0], [1, 1 / 2 - o]], [[1, 1 / 2 - o], [1, 1 / 2 + o]]]) ∨
    (closure = some "y_max" ∧ SideIs T.splines 1 0 [[[1 / 2 + o, 0], [1 / 2 - o, 0]]] ∧ SideIs T.splines 1 1 [[[1, 1], [0, 1]]] ∧
      SideIs T.splines 0 0 [[[0, 1 / 2 - o], [0, 1 / 2 + o]], [[0, 1 / 2 + o], [0, 1]]] ∧ SideIs T.splines 0 1 [[[1, 1 / 2 - o], [1, 1 / 2 + o]], [[1, 1 / 2 + o], [1, 1]]])) := by
  simp only [createHollowOctagon, Option.getD_some, Option.ite_none_right_eq_some, Bool.and_eq_true, decide_eq_true_eq] at h
  obtain ⟨⟨⟨⟨⟨h1, h2⟩, _⟩, h3⟩, h4⟩, h⟩ := h
  obtain ⟨a, rfl⟩ := params_one h3
  rw [within_iff] at h4
  have ha := h4 [a] (by simp) a (by simp)
  have hi : 0 < contact * a ∧ contact * a < 1 / 2 := ⟨mul_pos h1 ha.1, by nlinarith [ha.1, ha.2]⟩
  have ho : 0 < contact * (1 / 2) ∧ contact * (1 / 2) < 1 / 2 := ⟨by linarith, by linarith⟩
  refine ⟨contact * (1 / 2), rfl, ?_⟩
  cases closure with
  | none =>
    simp only [Option.some.injEq] at h
    subst h
    exact Or.inl ⟨rfl, hollow_octagon_sides _ _ _ ha hi ho⟩
  | some cl =>
    cases ht : hollowOctagonClosing cl contact [[a]] with
    | none => simp [ht] at h
    | some t =>
      simp only [ht, Option.map_some, Option.some.injEq] at h
      subst h
      simp only [hollowOctagonClosing, Option.ite_none_right_eq_some] at ht
      obtain ⟨-, ht⟩ := ht
      split_ifs at ht with e1 e2 e3 e4 <;> rw [Option.some.injEq] at ht <;> subst ht
      · exact Or.inr (Or.inl ⟨by rw [e1], (hollow_octagon_x_sides _ _ _ ha hi ho).1⟩)
      · exact Or.inr (Or.inr (Or.inl ⟨by rw [e2], (hollow_octagon_x_sides _ _ _ ha hi ho).2⟩))
      · exact Or.inr (Or.inr (Or.inr (Or.inl ⟨by rw [e3], (hollow_octagon_y_sides _ _ _ ha hi ho).1⟩)))
      · exact Or.inr (Or.inr (Or.inr (Or.inr ⟨by rw [e4], (hollow_octagon_y_sides _ _ _ ha hi ho).2⟩)))

set_option maxHeartbeats 1000000 in
/-- Neighbouring tiles of `HollowOctagon`, ordinary or closing, meet whatever their parameters; some faces of the closing tiles are numbered from the other end. -/
theorem hollow_octagon_joins (contact : K) (axis : ℕ) (ha : axis < 2) (c c' : Option String) (hn : Neighbours axis c c') (p q : Mat K)
    (s s' : Option (List (Mat K))) (T U : Tile K) (hT : createHollowOctagon contact c (some p) s = some T)
    (hU : createHollowOctagon contact c' (some q) s' = some U) : JoinsEitherWay T.splines U.splines axis := by
  obtain ⟨o, ho, hT⟩ := hollow_octagon_create_sides _ _ _ _ _ hT
  obtain ⟨o', ho', hU⟩ := hollow_octagon_create_sides _ _ _ _ _ hU
  obtain rfl : o = o' := ho.trans ho'.symm
  clear ho ho'
  rcases hT with ⟨rfl, a1, a2, a3, a4⟩ | ⟨rfl, a1, a2, a3, a4⟩ | ⟨rfl, a1, a2, a3, a4⟩ | ⟨rfl, a1, a2, a3, a4⟩ | ⟨rfl, a1, a2, a3, a4⟩ <;>
  rcases hU with ⟨rfl, b1, b2, b3, b4⟩ | ⟨rfl, b1, b2, b3, b4⟩ | ⟨rfl, b1, b2, b3, b4⟩ | ⟨rfl, b1, b2, b3, b4⟩ | ⟨rfl, b1, b2, b3, b4⟩ <;>
  obtain rfl | rfl : axis = 0 ∨ axis = 1 := by omega
  all_goals first
    | (exfalso; simp [Neighbours] at hn; done)
    | skip
  all_goals first
    | refine joinsEitherWay_of_sides a2 b1 ?_ ?_
    | refine joinsEitherWay_of_sides a4 b3 ?_ ?_
    | refine joinsEitherWay_of_sides a4 b1 ?_ ?_
    | refine joinsEitherWay_of_sides a2 b3 ?_ ?_
  all_goals simp

/-! ### `Snappy` -/

set_option maxHeartbeats 4000000 in
theorem snappy_x_sides (l a b r : K) (hl : 0 < l) (hr : 0 ≤ r) (hlr : l + r < 1 / 2) :
    SideIs (snappy 0 (1 / 2) 1 l (1 - l) a (1 - a) b r) 0 0 [[[0, 0], [0, b]], [[0, 1 - a], [0, 1]]] ∧
    SideIs (snappy 0 (1 / 2) 1 l (1 - l) a (1 - a) b r) 0 1 [[[1, 0], [1, b]], [[1, 1 - a], [1, 1]]] := by
  have f1 : ¬(l = 0) ∧ ¬(l = 1) ∧ ¬(1 - l = 0) ∧ ¬(1 - l = 1) ∧ ¬(1 / 2 - l = 0) ∧ ¬(1 / 2 - l = 1) ∧ ¬(1 / 2 + l = 0) ∧ ¬(1 / 2 + l = 1) := by
    refine ⟨fun e => ?_, fun e => ?_, fun e => ?_, fun e => ?_, fun e => ?_, fun e => ?_, fun e => ?_, fun e => ?_⟩ <;> linarith
  have f2 : ¬(l + 1 / 2 = 0) ∧ ¬(l + 1 / 2 = 1) ∧ ¬(1 / 2 - l + 1 / 2 = 0) ∧ ¬(1 / 2 - l + 1 / 2 = 1) := by
    refine ⟨fun e => ?_, fun e => ?_, fun e => ?_, fun e => ?_⟩ <;> linarith
  unfold snappy
  refine ⟨?_, ?_⟩ <;> side [f1, f2]

set_option maxHeartbeats 4000000 in
theorem snappy_y_sides (l a b r : K) (ha : 0 < a ∧ a < 1 / 2) (hb : 0 < b ∧ b < 1) (hb' : b ≠ 1 / 2) :
    SideIs (snappy 0 (1 / 2) 1 l (1 - l) a (1 - a) b r) 1 0 [[[0, 0], [l, 0]], [[1 - l, 0], [1, 0]]] ∧
    SideIs (snappy 0 (1 / 2) 1 l (1 - l) a (1 - a) b r) 1 1 [[[0, 1], [l, 1]], [[1 - l, 1], [1, 1]]] := by
  have f1 : ¬(a = 0) ∧ ¬(a = 1) ∧ ¬(1 - a = 0) ∧ ¬(1 - a = 1) ∧ ¬(1 / 2 + a = 0) ∧ ¬(1 / 2 + a = 1) := by
    refine ⟨fun e => ?_, fun e => ?_, fun e => ?_, fun e => ?_, fun e => ?_, fun e => ?_⟩ <;> linarith [ha.1, ha.2]
  have f2 : ¬(b = 0) ∧ ¬(b = 1) ∧ ¬(1 / 2 - b = 0) ∧ ¬(1 / 2 - b = 1) ∧ ¬((1 / 2 : K) = 0) ∧ ¬((1 / 2 : K) = 1) := by
    refine ⟨fun e => ?_, fun e => ?_, fun e => hb' (by linarith), fun e => ?_, fun e => ?_, fun e => ?_⟩ <;> linarith [hb.1, hb.2]
  unfold snappy
  refine ⟨?_, ?_⟩ <;> (simp only [add_zero]; side [f1, f2, add_zero])

/-- Neighbouring tiles of `Snappy` meet in `x`; in `y` if neither `a` nor `b` is zero and `b` is not one half. -/
theorem snappy_joins_partial (contact a b c r : K) (p : Option (Mat K)) (s : Option (List (Mat K))) (T : Tile K) (hT : createSnappy contact a b c r none p s = some T) :
    Joins T.splines T.splines 0 ∧ (0 < a → 0 < b → b ≠ 1 / 2 → Joins T.splines T.splines 1) := by
  simp only [createSnappy, Option.ite_none_right_eq_some, Bool.and_eq_true, decide_eq_true_eq, Option.some.injEq, Bool.not_eq_true', decide_eq_false_iff_not, not_lt] at hT
  obtain ⟨⟨⟨⟨⟨⟨⟨⟨⟨⟨ha, hb⟩, hc⟩, hr⟩, -⟩, h0, h1⟩, hrc⟩, h2, h3⟩, -⟩, -⟩, rfl⟩ := hT
  constructor
  · obtain ⟨x0, x1⟩ := snappy_x_sides (contact * (1 / 2)) a b r (by linarith) hr (by linarith)
    exact joins_of_sides x1 x0 (by simp) (by simp)
  · intro ha' hb' hb2
    obtain ⟨y0, y1⟩ := snappy_y_sides (contact * (1 / 2)) a b r ⟨ha', by linarith⟩ ⟨hb', by linarith⟩ hb2
    exact joins_of_sides y1 y0 (by simp) (by simp)

example : (createDoubleLattice (7 / 5 : ℚ) (1 / 2) none (some [[1 / 5, 1 / 10]]) none).isSome = true ∧
    (createDoubleLattice (7 / 5 : ℚ) (1 / 2) none (some [[1 / 6, 1 / 9]]) none).isSome = true := by decide +kernel

example : (createHollowOctagon (1 / 5 : ℚ) (some "y_max") (some [[1 / 5]]) none).isSome = true ∧ (createHollowOctagon (1 / 5 : ℚ) (some "y_max") (some [[1 / 4]]) none).isSome = true ∧
    Neighbours 0 (some "y_max") (some "y_max") := by
  refine ⟨by decide +kernel, by decide +kernel, ?_⟩
  right
  simp

example : (createSnappy (1 / 10 : ℚ) (1 / 11) (1 / 5) (1 / 5) (3 / 20) none none none).isSome = true := by decide +kernel

end

/-- With `b = 1/2` the middle of the tile touches the lower side but not the upper one. -/
theorem snappy_joins_violates : ∃ T : Tile ℚ, createSnappy (1 / 10) (1 / 11) (1 / 2) (1 / 5) (3 / 20) none none none = some T ∧ ¬ Joins T.splines T.splines 1 := by
  refine ⟨⟨snappy 0 (1 / 2) 1 (1 / 10 * (1 / 2)) (1 - 1 / 10 * (1 / 2)) (1 / 11) (1 - 1 / 11) (1 / 2) (3 / 20), none⟩, ?_, ?_⟩
  · rw [createSnappy, if_pos (by decide +kernel)]
  rintro ⟨-, h⟩
  obtain ⟨f, hf, hf1, e⟩ := h [[9 / 20, 0], [11 / 20, 0]] (by decide +kernel) (by simp [OnPlane])
  revert e
  revert hf1
  revert hf
  revert f
  show ∀ f ∈ faces (snappy 0 (1 / 2) 1 (1 / 10 * (1 / 2)) (1 - 1 / 10 * (1 / 2)) (1 / 11) (1 - 1 / 11) (1 / 2) (3 / 20)), (∀ x ∈ f, x.getD 1 0 = (1 : ℚ)) → ¬ f.map (fun x => x.set 1 0) = _
  decide +kernel

end Splinepy.Tiles
