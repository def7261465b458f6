import Verif.Props.TileExtrude
import Mathlib.Tactic.IntervalCases

/-!
C76, C77, C109, C110 for `InverseCross3D`: in the unit cube, neighbours meet, the patches hang together, and the tile fills exactly what `Cross3D` leaves free.
-/

namespace Splinepy.Tiles

open Spec Splinepy.Spec

section
variable {K : Type} [Field K] [LinearOrder K] [IsStrictOrderedRing K]

/-- what is known of an accepted radius -/
def RadiusOk (expansion s r : K) : Prop := 1 / 2 - s ≤ r ∧ 0 ≤ r ∧ r ≤ 1 / 2 ∧ r * expansion ≤ 1 / 2 ∧ r ≤ s

/-- the tile of values of a closing tile -/
def inverseCloseVals (s bound fill r : K) : List K :=
  inverseCloseTable s (1 / 2 - 2 * (1 / 2 - s)) fill (1 - fill) ((1 + fill) * (1 / 2)) (1 - (1 + fill) * (1 / 2)) ((1 - 2 * bound) * (1 / 2))
    (((1 - 2 * bound) * (1 / 2) + 1 / 2) * (1 / 2)) r

/-- the tile of values of an ordinary tile -/
def inverseVals (s m a b c e f g : K) : List K :=
  inverseCross3DTable s (1 / 2 - 2 * (1 / 2 - s)) (1 / 2 * (1 / 2 + m)) m a b c e f g (min a m) (min b m) (min c m) (min e m) (min f m) (min g m)

theorem inverse_cases {expansion bound fill : K} {separator : Option K} {closure : Option String} {p : Option (Mat K)} {ss : Option (List (Mat K))} {T : Tile K}
    (h : createInverseCross3D expansion bound fill separator closure p ss = some T) :
    ∃ s a b c e f g : K, s = separator.getD (3 / 10) ∧ p.getD (constant 6 1 (1 / 5)) = [[a], [b], [c], [e], [f], [g]] ∧ (1 / 2 < expansion ∧ expansion < 3 / 2) ∧
      (RadiusOk expansion s a ∧ RadiusOk expansion s b ∧ RadiusOk expansion s c ∧ RadiusOk expansion s e ∧ RadiusOk expansion s f ∧ RadiusOk expansion s g) ∧
      (closure = none ∧ T.splines = decode (look (inverseVals s ((a + b + c + e + f + g) / 6 * expansion) a b c e f g)) inverseCross3DCode ∨
        ((0 < bound ∧ bound < 1 / 2) ∧ 0 < fill ∧ fill < 1) ∧
          (closure = some "z_min" ∧ T.splines = decode (look (inverseCloseVals s bound fill g)) inverseCross3DCloseZMinCode ∨
            closure = some "z_max" ∧ T.splines = decode (look (inverseCloseVals s bound fill f)) inverseCross3DCloseZMaxCode)) := by
  simp only [createInverseCross3D, Option.ite_none_right_eq_some, Bool.and_eq_true, decide_eq_true_eq] at h
  generalize separator.getD (3 / 10) = s at *
  generalize p.getD (constant 6 1 (1 / 5)) = p at *
  obtain ⟨⟨⟨⟨⟨h1, h2⟩, h3⟩, h4⟩, h5⟩, h⟩ := h
  obtain ⟨a, b, c, e, f, g, rfl⟩ := params_six h4
  have hpos : (0 : K) < expansion := by linarith
  simp only [radiiBetween, List.all_cons, List.all_nil, Bool.and_true, Bool.and_eq_true, Bool.not_eq_true', decide_eq_false_iff_not, not_lt, max_le_iff, le_min_iff, le_div_iff₀ hpos] at h5
  obtain ⟨⟨⟨a1, a2⟩, ⟨a3, a4⟩, a5⟩, ⟨⟨b1, b2⟩, ⟨b3, b4⟩, b5⟩, ⟨⟨c1, c2⟩, ⟨c3, c4⟩, c5⟩, ⟨⟨e1, e2⟩, ⟨e3, e4⟩, e5⟩, ⟨⟨f1, f2⟩, ⟨f3, f4⟩, f5⟩, ⟨g1, g2⟩, ⟨g3, g4⟩, g5⟩ := h5
  refine ⟨s, a, b, c, e, f, g, rfl, rfl, ⟨h1, h2⟩, ⟨⟨a1, a2, a3, a4, a5⟩, ⟨b1, b2, b3, b4, b5⟩, ⟨c1, c2, c3, c4, c5⟩, ⟨e1, e2, e3, e4, e5⟩, ⟨f1, f2, f3, f4, f5⟩,
    ⟨g1, g2, g3, g4, g5⟩⟩, ?_⟩
  cases closure with
  | none =>
    left
    rw [Option.some.injEq] at h
    subst h
    exact ⟨rfl, inverseCross3D_code ..⟩
  | some cl =>
    right
    simp only [Option.map_eq_some_iff, inverseCross3DClosing, Option.ite_none_right_eq_some, Bool.and_eq_true, decide_eq_true_eq] at h
    obtain ⟨t, ⟨⟨⟨⟨-, -⟩, hb⟩, hf⟩, ht⟩, rfl⟩ := h
    refine ⟨⟨hb, hf⟩, ?_⟩
    split_ifs at ht with h1 h2 <;> rw [Option.some.injEq] at ht <;> subst ht
    · exact Or.inl ⟨by rw [h1], inverseCross3DCloseZMin_code ..⟩
    · exact Or.inr ⟨by rw [h2], inverseCross3DCloseZMax_code ..⟩

theorem inverse_below : below 34 inverseCross3DCode = true ∧ below 16 inverseCross3DCloseZMinCode = true ∧ below 16 inverseCross3DCloseZMaxCode = true := by decide +kernel

/-- numbers `1 / 2 - x` and `1 / 2 + x` -/
theorem half_range {x : K} (h : 0 ≤ x ∧ x ≤ 1 / 2) : (0 ≤ 1 / 2 - x ∧ 1 / 2 - x ≤ 1) ∧ (0 ≤ 1 / 2 + x ∧ 1 / 2 + x ≤ 1) := by
  obtain ⟨h1, h2⟩ := h
  exact ⟨⟨by linarith, by linarith⟩, by linarith, by linarith⟩

theorem table_all {l : List K} {Q : K → ℕ → Prop} (h : ∀ e ∈ l.zipIdx, Q e.1 e.2) : ∀ n < l.length, Q (look l n) n := by
  intro n hn
  rw [look, List.getD_eq_getElem _ _ hn]
  exact h (l[n], n) (by rw [List.mem_iff_getElem?]; exact ⟨n, by simp [hn]⟩)

theorem center_le {expansion s a b c e f g : K} (ha : RadiusOk expansion s a) (hb : RadiusOk expansion s b) (hc : RadiusOk expansion s c) (he : RadiusOk expansion s e)
    (hf : RadiusOk expansion s f) (hg : RadiusOk expansion s g) (hx : 1 / 2 < expansion) :
    0 ≤ (a + b + c + e + f + g) / 6 * expansion ∧ (a + b + c + e + f + g) / 6 * expansion ≤ 1 / 2 := by
  obtain ⟨-, a0, -, a1, -⟩ := ha
  obtain ⟨-, b0, -, b1, -⟩ := hb
  obtain ⟨-, c0, -, c1, -⟩ := hc
  obtain ⟨-, e0, -, e1, -⟩ := he
  obtain ⟨-, f0, -, f1, -⟩ := hf
  obtain ⟨-, g0, -, g1, -⟩ := hg
  have hpos : (0 : K) ≤ expansion := by linarith
  refine ⟨by positivity, ?_⟩
  have e : (a + b + c + e + f + g) / 6 * expansion = (a * expansion + b * expansion + c * expansion + e * expansion + f * expansion + g * expansion) / 6 := by ring
  rw [e]
  linarith

/-- all values are in the unit interval -/
theorem inverseVals_range {s m a b c e f g : K} (hs : 1 / 4 ≤ s ∧ s ≤ 1 / 2) (hm : 0 ≤ m ∧ m ≤ 1 / 2) (ha : 0 ≤ a ∧ a ≤ 1 / 2) (hb : 0 ≤ b ∧ b ≤ 1 / 2) (hc : 0 ≤ c ∧ c ≤ 1 / 2)
    (he : 0 ≤ e ∧ e ≤ 1 / 2) (hf : 0 ≤ f ∧ f ≤ 1 / 2) (hg : 0 ≤ g ∧ g ≤ 1 / 2) : ∀ n < 34, 0 ≤ look (inverseVals s m a b c e f g) n ∧ look (inverseVals s m a b c e f g) n ≤ 1 := by
  have mn : ∀ x : K, 0 ≤ x ∧ x ≤ 1 / 2 → 0 ≤ min x m ∧ min x m ≤ 1 / 2 := fun x hx => ⟨le_min hx.1 hm.1, (min_le_left _ _).trans hx.2⟩
  have hk : 0 ≤ 1 / 2 - 2 * (1 / 2 - s) ∧ 1 / 2 - 2 * (1 / 2 - s) ≤ 1 / 2 := ⟨by linarith [hs.1], by linarith [hs.2]⟩
  have hd : 0 ≤ 1 / 2 * (1 / 2 + m) ∧ 1 / 2 * (1 / 2 + m) ≤ 1 / 2 := ⟨by linarith [hm.1], by linarith [hm.2]⟩
  have hs' : 0 ≤ s ∧ s ≤ 1 / 2 := ⟨by linarith [hs.1], hs.2⟩
  refine table_all (l := inverseVals s m a b c e f g) (Q := fun x _ => 0 ≤ x ∧ x ≤ 1) ?_
  simp only [inverseVals, inverseCross3DTable, List.zipIdx_cons, List.zipIdx_nil, List.forall_mem_cons, List.not_mem_nil, false_imp_iff, implies_true, and_true]
  have r := fun x h => (half_range (K := K) (x := x) h)
  refine ⟨by norm_num, by norm_num, ?_⟩
  simp only [(r _ hk).1, (r _ hk).2, (r _ hs').1, (r _ hs').2, (r _ hd).1, (r _ hd).2, (r _ hm).1, (r _ hm).2, (r _ ha).1, (r _ ha).2, (r _ hb).1, (r _ hb).2, (r _ hc).1, (r _ hc).2,
    (r _ he).1, (r _ he).2, (r _ hf).1, (r _ hf).2, (r _ hg).1, (r _ hg).2, (r _ (mn a ha)).1, (r _ (mn a ha)).2, (r _ (mn b hb)).1, (r _ (mn b hb)).2, (r _ (mn c hc)).1,
    (r _ (mn c hc)).2, (r _ (mn e he)).1, (r _ (mn e he)).2, (r _ (mn f hf)).1, (r _ (mn f hf)).2, (r _ (mn g hg)).1, (r _ (mn g hg)).2, and_self]

theorem inverseCloseVals_range {s bound fill r : K} (hs : 1 / 4 ≤ s ∧ s ≤ 1 / 2) (hb : 0 < bound ∧ bound < 1 / 2) (hf : 0 < fill ∧ fill < 1) (hr : 0 ≤ r ∧ r ≤ 1 / 2) :
    ∀ n < 16, 0 ≤ look (inverseCloseVals s bound fill r) n ∧ look (inverseCloseVals s bound fill r) n ≤ 1 := by
  obtain ⟨s1, s2⟩ := hs
  obtain ⟨b1, b2⟩ := hb
  obtain ⟨f1, f2⟩ := hf
  obtain ⟨r1, r2⟩ := hr
  refine table_all (l := inverseCloseVals s bound fill r) (Q := fun x _ => 0 ≤ x ∧ x ≤ 1) ?_
  simp only [inverseCloseVals, inverseCloseTable, List.zipIdx_cons, List.zipIdx_nil, List.forall_mem_cons, List.not_mem_nil, false_imp_iff, implies_true, and_true]
  and_intros <;> linarith

/-- `InverseCross3D`, ordinary and closing tiles, stays in the unit cube, if the separator distance is at most one half. -/
theorem inverse_cross_3D_in_unit_cube_partial (expansion bound fill : K) (separator : Option K) (hsep : separator.getD (3 / 10) ≤ 1 / 2) (closure : Option String) (p : Option (Mat K))
    (ss : Option (List (Mat K))) (T : Tile K) (h : createInverseCross3D expansion bound fill separator closure p ss = some T) : InUnitCube T.splines := by
  obtain ⟨s, a, b, c, e, f, g, rfl, -, hx, ⟨ha, hb, hc, he, hf, hg⟩, hT⟩ := inverse_cases h
  generalize separator.getD (3 / 10) = s at *
  have hs : 1 / 4 ≤ s ∧ s ≤ 1 / 2 := ⟨by linarith [ha.1, ha.2.2.2.2], hsep⟩
  have rng : ∀ {r : K}, RadiusOk expansion s r → 0 ≤ r ∧ r ≤ 1 / 2 := fun h => ⟨h.2.1, h.2.2.1⟩
  rcases hT with ⟨-, e⟩ | ⟨⟨hbd, hfl⟩, ⟨-, e⟩ | ⟨-, e⟩⟩ <;> rw [e]
  · exact inUnitCube_decode inverse_below.1 (inverseVals_range hs (center_le ha hb hc he hf hg hx.1) (rng ha) (rng hb) (rng hc) (rng he) (rng hf) (rng hg))
  · exact inUnitCube_decode inverse_below.2.1 (inverseCloseVals_range hs hbd hfl (rng hg))
  · exact inUnitCube_decode inverse_below.2.2 (inverseCloseVals_range hs hbd hfl (rng hf))

theorem inverse_hits : (∃ P ∈ inverseCross3DCode, ∃ c ∈ P.cps, 3 ∈ c) ∧ (∃ P ∈ inverseCross3DCloseZMinCode, ∃ c ∈ P.cps, 8 ∈ c) ∧
    ∃ P ∈ inverseCross3DCloseZMaxCode, ∃ c ∈ P.cps, 8 ∈ c := by decide +kernel

/-- A separator distance above one half is accepted; then every tile leaves the unit cube. -/
theorem inverse_cross_3D_in_unit_cube_violates (expansion bound fill sep : K) (hsep : 1 / 2 < sep) (closure : Option String) (p : Option (Mat K))
    (ss : Option (List (Mat K))) (T : Tile K) (h : createInverseCross3D expansion bound fill (some sep) closure p ss = some T) : ¬ InUnitCube T.splines := by
  obtain ⟨s, a, b, c, e, f, g, rfl, -, hx, -, hT⟩ := inverse_cases h
  try simp only [Option.getD_some] at hT
  obtain ⟨⟨P, hP, x, hx', hn⟩, ⟨P', hP', y, hy', hm⟩, ⟨P'', hP'', z, hz', hk⟩⟩ := inverse_hits
  intro hI
  rcases hT with ⟨-, e⟩ | ⟨-, ⟨-, e⟩ | ⟨-, e⟩⟩ <;> rw [e] at hI
  · have := (hI _ (List.mem_map_of_mem hP) _ (List.mem_map_of_mem hx') _ (List.mem_map_of_mem hn)).1
    simp only [look, inverseVals, inverseCross3DTable, List.getD_cons_zero, List.getD_cons_succ] at this
    linarith
  · have := (hI _ (List.mem_map_of_mem hP') _ (List.mem_map_of_mem hy') _ (List.mem_map_of_mem hm)).1
    simp only [look, inverseCloseVals, inverseCloseTable, List.getD_cons_zero, List.getD_cons_succ] at this
    linarith
  · have := (hI _ (List.mem_map_of_mem hP'') _ (List.mem_map_of_mem hz') _ (List.mem_map_of_mem hk)).1
    simp only [look, inverseCloseVals, inverseCloseTable, List.getD_cons_zero, List.getD_cons_succ] at this
    linarith

example : (createInverseCross3D (1 : ℚ) (1 / 10) (1 / 2) none none none none).isSome = true ∧ (createInverseCross3D (1 : ℚ) (1 / 10) (1 / 2) (some (3 / 5)) none none none).isSome = true ∧
    (createInverseCross3D (1 : ℚ) (1 / 10) (1 / 2) (some (2 / 5)) (some "z_min") (some [[1 / 5], [3 / 10], [1 / 4], [1 / 5], [2 / 5], [1 / 8]]) none).isSome = true := by
  decide +kernel

/-! ### the patches hang together -/

theorem inverse_spans :
    spans inverseCross3DCode [0] [(12, 0), (16, 0), (4, 12), (6, 16), (8, 12), (10, 16), (13, 8), (14, 4), (17, 10), (18, 6), (1, 13), (2, 14), (5, 13), (7, 17), (9, 14), (11, 18),
      (15, 5), (19, 7), (3, 15)] = true ∧
    spans inverseCross3DCloseZMinCode [0] [(4, 0), (5, 0), (2, 4), (3, 5), (6, 2), (7, 3), (1, 6)] = true ∧
    spans inverseCross3DCloseZMaxCode [0] [(4, 0), (7, 0), (2, 4), (3, 7), (5, 3), (6, 2), (1, 5)] = true := by decide +kernel

/-- The patches of `InverseCross3D`, ordinary and closing tiles, hang together. -/
theorem inverse_cross_3D_connected (expansion bound fill : K) (separator : Option K) (closure : Option String) (p : Option (Mat K))
    (ss : Option (List (Mat K))) (T : Tile K) (h : createInverseCross3D expansion bound fill separator closure p ss = some T) : Connected T.splines := by
  obtain ⟨s, a, b, c, e, f, g, rfl, -, -, -, hT⟩ := inverse_cases h
  rcases hT with ⟨-, e⟩ | ⟨-, ⟨-, e⟩ | ⟨-, e⟩⟩ <;> rw [e]
  · exact connected_decode _ (connected_of_spans _ inverse_spans.1)
  · exact connected_decode _ (connected_of_spans _ inverse_spans.2.1)
  · exact connected_decode _ (connected_of_spans _ inverse_spans.2.2)

/-! ### neighbours meet -/

/-- a value strictly between 0 and 1 -/
theorem half_inner {x : K} (h : 0 ≤ x ∧ x < 1 / 2) : (0 < 1 / 2 - x ∧ 1 / 2 - x < 1) ∧ (0 < 1 / 2 + x ∧ 1 / 2 + x < 1) := by
  obtain ⟨h1, h2⟩ := h
  exact ⟨⟨by linarith, by linarith⟩, by linarith, by linarith⟩

theorem ends_of_inner {L : List K} (h : ∀ x ∈ L.drop 2, 0 < x ∧ x < 1) (hL : L.take 2 = [0, 1]) :
    ∀ n < L.length, (look L n = 0 ↔ n = 0) ∧ (look L n = 1 ↔ n = 1) := by
  obtain ⟨l, rfl⟩ : ∃ l, L = 0 :: 1 :: l := ⟨L.drop 2, by have e := (List.take_append_drop 2 L).symm; rw [hL] at e; exact e⟩
  intro n hn
  match n, hn with
  | 0, _ => simp [look]
  | 1, _ => simp [look]
  | n + 2, hn =>
    have hn : n < l.length := by simp only [List.length_cons] at hn; omega
    obtain ⟨h1, h2⟩ := h l[n] (List.getElem_mem hn)
    have e : look (0 :: 1 :: l) (n + 2) = l[n] := by rw [look, List.getD_cons_succ, List.getD_cons_succ, List.getD_eq_getElem _ _ hn]
    rw [e]
    exact ⟨⟨fun h => absurd h h1.ne', fun h => by omega⟩, ⟨fun h => absurd h h2.ne, fun h => by omega⟩⟩

/-- only the first two values are ends of the unit interval -/
theorem inverseVals_ends {s m a b c e f g : K} (hs : 1 / 4 ≤ s ∧ s < 1 / 2) (hm : 0 ≤ m ∧ m < 1 / 2) (ha : 0 ≤ a ∧ a < 1 / 2) (hb : 0 ≤ b ∧ b < 1 / 2) (hc : 0 ≤ c ∧ c < 1 / 2)
    (he : 0 ≤ e ∧ e < 1 / 2) (hf : 0 ≤ f ∧ f < 1 / 2) (hg : 0 ≤ g ∧ g < 1 / 2) :
    ∀ n < 34, (look (inverseVals s m a b c e f g) n = 0 ↔ n = 0) ∧ (look (inverseVals s m a b c e f g) n = 1 ↔ n = 1) := by
  have mn : ∀ x : K, 0 ≤ x ∧ x < 1 / 2 → 0 ≤ min x m ∧ min x m < 1 / 2 := fun x hx => ⟨le_min hx.1 hm.1, (min_le_left _ _).trans_lt hx.2⟩
  have hk : 0 ≤ 1 / 2 - 2 * (1 / 2 - s) ∧ 1 / 2 - 2 * (1 / 2 - s) < 1 / 2 := ⟨by linarith [hs.1], by linarith [hs.2]⟩
  have hd : 0 ≤ 1 / 2 * (1 / 2 + m) ∧ 1 / 2 * (1 / 2 + m) < 1 / 2 := ⟨by linarith [hm.1], by linarith [hm.2]⟩
  have hs' : 0 ≤ s ∧ s < 1 / 2 := ⟨by linarith [hs.1], hs.2⟩
  refine ends_of_inner (L := inverseVals s m a b c e f g) ?_ rfl
  simp only [inverseVals, inverseCross3DTable, List.drop_succ_cons, List.drop_zero, List.forall_mem_cons, List.not_mem_nil, false_imp_iff, implies_true, and_true]
  have r := fun x h => (half_inner (K := K) (x := x) h)
  simp only [(r _ hk).1, (r _ hk).2, (r _ hs').1, (r _ hs').2, (r _ hd).1, (r _ hd).2, (r _ hm).1, (r _ hm).2, (r _ ha).1, (r _ ha).2, (r _ hb).1, (r _ hb).2, (r _ hc).1, (r _ hc).2,
    (r _ he).1, (r _ he).2, (r _ hf).1, (r _ hf).2, (r _ hg).1, (r _ hg).2, (r _ (mn a ha)).1, (r _ (mn a ha)).2, (r _ (mn b hb)).1, (r _ (mn b hb)).2, (r _ (mn c hc)).1,
    (r _ (mn c hc)).2, (r _ (mn e he)).1, (r _ (mn e he)).2, (r _ (mn f hf)).1, (r _ (mn f hf)).2, (r _ (mn g hg)).1, (r _ (mn g hg)).2, and_self]

theorem inverseCloseVals_ends {s bound fill r : K} (hs : 1 / 4 ≤ s ∧ s < 1 / 2) (hb : 0 < bound ∧ bound < 1 / 2) (hf : 0 < fill ∧ fill < 1) (hr : 0 ≤ r ∧ r < 1 / 2) :
    ∀ n < 16, (look (inverseCloseVals s bound fill r) n = 0 ↔ n = 0) ∧ (look (inverseCloseVals s bound fill r) n = 1 ↔ n = 1) := by
  obtain ⟨s1, s2⟩ := hs
  obtain ⟨b1, b2⟩ := hb
  obtain ⟨f1, f2⟩ := hf
  obtain ⟨r1, r2⟩ := hr
  refine ends_of_inner (L := inverseCloseVals s bound fill r) ?_ rfl
  simp only [inverseCloseVals, inverseCloseTable, List.drop_succ_cons, List.drop_zero, List.forall_mem_cons, List.not_mem_nil, false_imp_iff, implies_true, and_true]
  and_intros <;> linarith

/-- ordinary tiles: which value of a tile is which value of its neighbour -/
def inversePlain : ℕ → List (ℕ × ℕ)
  | 0 => [(7, 19), (13, 21)]
  | 1 => [(4, 23), (11, 25)]
  | _ => [(26, 32), (27, 33)]

/-- the values on a lower side -/
def inverseLower : ℕ → List ℕ
  | 0 => [7, 3, 2, 13, 10, 16, 0, 1]
  | 1 => [4, 3, 2, 11, 10, 16, 0, 1]
  | _ => [26, 3, 2, 27, 10, 16, 0, 1]

/-- the values on an upper side -/
def inverseUpper : ℕ → List ℕ
  | 0 => [19, 3, 2, 21, 10, 16, 0, 1]
  | 1 => [23, 3, 2, 25, 10, 16, 0, 1]
  | _ => [32, 3, 2, 33, 10, 16, 0, 1]

/-- from the numbers of an ordinary tile above to the ones of a closing tile below -/
def inverseUp : List (ℕ × ℕ) := [(26, 9), (27, 11), (3, 8), (2, 6), (10, 10), (16, 13)]

/-- from the numbers of a closing tile above to the ones of an ordinary tile below -/
def inverseDown : List (ℕ × ℕ) := [(9, 32), (11, 33), (8, 3), (6, 2), (10, 10), (13, 16)]

/-- exchange the components -/
def flipped (l : List (ℕ × ℕ)) : List (ℕ × ℕ) := l.map fun e => (e.2, e.1)

theorem inverse_meets_codes :
    (∀ axis < 3, tidy inverseCross3DCode axis 34 = true ∧ meetsHalfVia inverseCross3DCode inverseCross3DCode axis 1 0 (inversePlain axis) (inverseLower axis) = true ∧
      meetsHalfVia inverseCross3DCode inverseCross3DCode axis 0 1 (flipped (inversePlain axis)) (inverseUpper axis) = true) ∧
    (∀ axis < 3, tidy inverseCross3DCloseZMinCode axis 16 = true ∧ tidy inverseCross3DCloseZMaxCode axis 16 = true) ∧
    (∀ t ∈ [inverseCross3DCloseZMinCode, inverseCross3DCloseZMaxCode], ∀ axis < 2, meetsHalf t t axis 1 0 [0, 1, 2, 3, 4, 5, 6, 7, 8, 10, 12, 13, 14, 15] = true ∧
      meetsHalf t t axis 0 1 [0, 1, 2, 3, 4, 5, 6, 7, 8, 10, 12, 13, 14, 15] = true) ∧
    (meetsHalfVia inverseCross3DCloseZMinCode inverseCross3DCode 2 1 0 inverseUp [26, 3, 2, 27, 10, 16, 0, 1] = true ∧
      meetsHalfVia inverseCross3DCode inverseCross3DCloseZMinCode 2 0 1 (flipped inverseUp) [9, 11, 8, 6, 10, 13, 0, 1] = true) ∧
    (meetsHalfVia inverseCross3DCode inverseCross3DCloseZMaxCode 2 1 0 inverseDown [9, 11, 8, 6, 10, 13, 0, 1] = true ∧
      meetsHalfVia inverseCross3DCloseZMaxCode inverseCross3DCode 2 0 1 (flipped inverseDown) [32, 3, 2, 33, 10, 16, 0, 1] = true) ∧
    meetsHalf inverseCross3DCloseZMinCode inverseCross3DCloseZMaxCode 2 1 0 [9, 11, 8, 6, 10, 13, 0, 1] = true ∧
      meetsHalf inverseCross3DCloseZMaxCode inverseCross3DCloseZMinCode 2 0 1 [9, 11, 8, 6, 10, 13, 0, 1] = true := by
  decide +kernel

/-- Neighbouring tiles of `InverseCross3D`, ordinary or closing, meet if their radii on the common side agree. The separator distance must be below one half, and the center of the cross
must not fill the cell. -/
theorem inverse_cross_3D_joins_partial (expansion bound fill : K) (separator : Option K) (hsep : separator.getD (3 / 10) < 1 / 2) (axis : ℕ) (hax : axis < 3) (c c' : Option String)
    (hn : Neighbours axis c c') (p q : Mat K) (ss ss' : Option (List (Mat K))) (T U : Tile K) (hT : createInverseCross3D expansion bound fill separator c (some p) ss = some T)
    (hU : createInverseCross3D expansion bound fill separator c' (some q) ss' = some U) (hp : inverseCenter expansion p < 1 / 2) (hq : inverseCenter expansion q < 1 / 2)
    (hpq : entry p (2 * axis + 1) 0 = entry q (2 * axis) 0) : Meets T.splines U.splines axis := by
  obtain ⟨s, a1, a2, a3, a4, a5, a6, rfl, ep, hx, ⟨h1, h2, h3, h4, h5, h6⟩, kT⟩ := inverse_cases hT
  obtain ⟨s', b1, b2, b3, b4, b5, b6, rfl, eq, -, ⟨g1, g2, g3, g4, g5, g6⟩, kU⟩ := inverse_cases hU
  rw [Option.getD_some] at ep eq
  subst ep eq
  generalize separator.getD (3 / 10) = s at *
  have hs : 1 / 4 ≤ s ∧ s < 1 / 2 := ⟨by linarith [h1.1, h1.2.2.2.2], hsep⟩
  have rng : ∀ {r : K}, RadiusOk expansion s r → 0 ≤ r ∧ r < 1 / 2 := fun h => ⟨h.2.1, lt_of_le_of_lt h.2.2.2.2 hsep⟩
  have hm := (center_le h1 h2 h3 h4 h5 h6 hx.1).1
  have hm' := (center_le g1 g2 g3 g4 g5 g6 hx.1).1
  simp only [inverseCenter, entry, List.getD_cons_zero, List.getD_cons_succ] at hp hq
  obtain ⟨cp, ct, cx, cu, cd, cz, cz'⟩ := inverse_meets_codes
  have ends := inverseVals_ends hs ⟨hm, hp⟩ (rng h1) (rng h2) (rng h3) (rng h4) (rng h5) (rng h6)
  have ends' := inverseVals_ends hs ⟨hm', hq⟩ (rng g1) (rng g2) (rng g3) (rng g4) (rng g5) (rng g6)
  have same : ∀ t ∈ [inverseCross3DCloseZMinCode, inverseCross3DCloseZMaxCode], ∀ axis < 2, (0 < bound ∧ bound < 1 / 2) → (0 < fill ∧ fill < 1) → ∀ r r' : K,
      RadiusOk expansion s r → RadiusOk expansion s r' →
      Meets (decode (look (inverseCloseVals s bound fill r)) t) (decode (look (inverseCloseVals s bound fill r')) t) axis := by
    intro t ht axis hax kb kf r r' hr hr'
    obtain ⟨m1, m2⟩ := cx t ht axis hax
    have tt : tidy t axis 16 = true := by
      simp only [List.mem_cons, List.not_mem_nil, or_false] at ht
      rcases ht with rfl | rfl
      · exact (ct axis (by omega)).1
      · exact (ct axis (by omega)).2
    refine meets_decode (fun n hn => (inverseCloseVals_ends hs kb kf (rng hr) n hn).2) (fun n hn => (inverseCloseVals_ends hs kb kf (rng hr') n hn).1) rfl rfl (fun n hn => ?_) tt tt m1 m2
    simp only [List.mem_cons, List.not_mem_nil, or_false] at hn
    rcases hn with rfl | rfl | rfl | rfl | rfl | rfl | rfl | rfl | rfl | rfl | rfl | rfl | rfl | rfl <;> rfl
  rcases kT with ⟨rfl, e⟩ | ⟨⟨kb, kf⟩, ⟨rfl, e⟩ | ⟨rfl, e⟩⟩ <;> rcases kU with ⟨rfl, e'⟩ | ⟨⟨kb', kf'⟩, ⟨rfl, e'⟩ | ⟨rfl, e'⟩⟩ <;>
    obtain rfl | rfl | rfl : axis = 0 ∨ axis = 1 ∨ axis = 2 := by omega
  all_goals first
    | (exfalso; simp [Neighbours] at hn; done)
    | skip
  all_goals rw [e, e']
  all_goals simp only [Nat.mul_zero, Nat.mul_one, Nat.zero_add, Nat.reduceMul, Nat.reduceAdd, entry, List.getD_cons_zero, List.getD_cons_succ] at hpq
  · obtain ⟨t, m1, m2⟩ := cp 0 (by omega)
    refine meets_decode_via _ _ _ _ (fun n hn => (ends n hn).2) (fun n hn => (ends' n hn).1) rfl rfl ?_ ?_ t t m1 m2
    · simp [inverseLower, inversePlain, via, List.lookup, look, inverseVals, inverseCross3DTable, hpq]
    · simp [inverseUpper, inversePlain, flipped, via, List.lookup, look, inverseVals, inverseCross3DTable, hpq]
  · obtain ⟨t, m1, m2⟩ := cp 1 (by omega)
    refine meets_decode_via _ _ _ _ (fun n hn => (ends n hn).2) (fun n hn => (ends' n hn).1) rfl rfl ?_ ?_ t t m1 m2
    · simp [inverseLower, inversePlain, via, List.lookup, look, inverseVals, inverseCross3DTable, hpq]
    · simp [inverseUpper, inversePlain, flipped, via, List.lookup, look, inverseVals, inverseCross3DTable, hpq]
  · obtain ⟨t, m1, m2⟩ := cp 2 (by omega)
    refine meets_decode_via _ _ _ _ (fun n hn => (ends n hn).2) (fun n hn => (ends' n hn).1) rfl rfl ?_ ?_ t t m1 m2
    · simp [inverseLower, inversePlain, via, List.lookup, look, inverseVals, inverseCross3DTable, hpq]
    · simp [inverseUpper, inversePlain, flipped, via, List.lookup, look, inverseVals, inverseCross3DTable, hpq]
  · refine meets_decode_via _ _ _ _ (fun n hn => (ends n hn).2) (fun n hn => (inverseCloseVals_ends hs kb' kf' (rng g5) n hn).1) rfl rfl ?_ ?_ (cp 2 (by omega)).1 (ct 2 (by omega)).2 cd.1 cd.2
    · simp [inverseDown, via, List.lookup, look, inverseVals, inverseCross3DTable, inverseCloseVals, inverseCloseTable, hpq]
    · simp [inverseDown, flipped, via, List.lookup, look, inverseVals, inverseCross3DTable, inverseCloseVals, inverseCloseTable, hpq]
  · refine meets_decode_via _ _ _ _ (fun n hn => (inverseCloseVals_ends hs kb kf (rng h6) n hn).2) (fun n hn => (ends' n hn).1) rfl rfl ?_ ?_ (ct 2 (by omega)).1 (cp 2 (by omega)).1 cu.1 cu.2
    · simp [inverseUp, via, List.lookup, look, inverseVals, inverseCross3DTable, inverseCloseVals, inverseCloseTable, hpq]
    · simp [inverseUp, flipped, via, List.lookup, look, inverseVals, inverseCross3DTable, inverseCloseVals, inverseCloseTable, hpq]
  · exact same _ (by simp) 0 (by omega) kb kf _ _ h6 g6
  · exact same _ (by simp) 1 (by omega) kb kf _ _ h6 g6
  · refine meets_decode (fun n hn => (inverseCloseVals_ends hs kb kf (rng h6) n hn).2) (fun n hn => (inverseCloseVals_ends hs kb' kf' (rng g5) n hn).1) rfl rfl (fun n hn => ?_)
      (ct 2 (by omega)).1 (ct 2 (by omega)).2 cz cz'
    rw [hpq]
  · exact same _ (by simp) 0 (by omega) kb kf _ _ h5 g5
  · exact same _ (by simp) 1 (by omega) kb kf _ _ h5 g5

/-- With the default separator distance there is no further condition. -/
theorem inverse_cross_3D_default_joins (expansion bound fill : K) (axis : ℕ) (hax : axis < 3) (c c' : Option String)
    (hn : Neighbours axis c c') (p q : Mat K) (ss ss' : Option (List (Mat K))) (T U : Tile K) (hT : createInverseCross3D expansion bound fill none c (some p) ss = some T)
    (hU : createInverseCross3D expansion bound fill none c' (some q) ss' = some U) (hpq : entry p (2 * axis + 1) 0 = entry q (2 * axis) 0) : Meets T.splines U.splines axis := by
  have key : ∀ {c p ss} {T : Tile K}, createInverseCross3D expansion bound fill none c (some p) ss = some T → inverseCenter expansion p < 1 / 2 := by
    intro c p ss T h
    obtain ⟨s, a1, a2, a3, a4, a5, a6, rfl, ep, hx, ⟨h1, h2, h3, h4, h5, h6⟩, -⟩ := inverse_cases h
    rw [Option.getD_some] at ep
    subst ep
    simp only [inverseCenter, entry, List.getD_cons_zero, List.getD_cons_succ, Option.getD_none] at *
    have l : ∀ {r : K}, RadiusOk expansion (3 / 10) r → r ≤ 3 / 10 := fun h => h.2.2.2.2
    have k : (a1 + a2 + a3 + a4 + a5 + a6) / 6 ≤ 3 / 10 := by linarith [l h1, l h2, l h3, l h4, l h5, l h6]
    have : (a1 + a2 + a3 + a4 + a5 + a6) / 6 * expansion ≤ 3 / 10 * expansion := mul_le_mul_of_nonneg_right k (by linarith [hx.1])
    linarith [hx.2]
  exact inverse_cross_3D_joins_partial expansion bound fill none (by norm_num) axis hax c c' hn p q ss ss' T U hT hU (key hT) (key hU) hpq

example : Neighbours 2 (some "z_min") none ∧ (createInverseCross3D (1 : ℚ) (1 / 10) (1 / 2) none (some "z_min") (some [[1 / 5], [3 / 10], [1 / 4], [1 / 5], [1 / 5], [1 / 4]]) none).isSome = true ∧
    (createInverseCross3D (1 : ℚ) (1 / 10) (1 / 2) none none (some [[1 / 5], [3 / 10], [1 / 4], [1 / 5], [1 / 4], [1 / 5]]) none).isSome = true := by
  refine ⟨Or.inl ⟨Or.inr rfl, Or.inl rfl⟩, ?_, ?_⟩ <;> decide +kernel

/-! ### the cross and what surrounds it -/

/-- the thinner of the two radii is the radius of the branch -/
def inverseMerge : List (ℕ × ℕ) := [(8, 7), (14, 13), (18, 19), (20, 21), (6, 4), (12, 11), (22, 23), (24, 25), (28, 26), (29, 27), (30, 32), (31, 33)]

theorem inverse_sealed_codes : below 34 inverseCross3DCode = true ∧ sealedB (cross3DCode ++ decode (via inverseMerge) inverseCross3DCode) = true := by decide +kernel

/-- The patches of `Cross3D` and the patches of `InverseCross3D` with the same radii and the same expansion leave no face free: each face lies in a side of the unit cell or is a face of
another patch. The radii must not exceed the radius of the center. -/
theorem inverse_cross_fits_cross_partial (expansion bound fill bound' fill' : K) (separator : Option K) (p : Option (Mat K)) (ss ss' : Option (List (Mat K))) (T U : Tile K)
    (hT : createCross3D expansion bound fill none p ss = some T) (hU : createInverseCross3D expansion bound' fill' separator none p ss' = some U)
    (hr : ∀ i < 6, entry (p.getD (constant 6 1 (1 / 5))) i 0 ≤ cross3DCenter expansion (p.getD (constant 6 1 (1 / 5)))) : Sealed (T.splines ++ U.splines) := by
  simp only [createCross3D, Option.ite_none_right_eq_some, Option.some.injEq] at hT
  obtain ⟨-, rfl⟩ := hT
  obtain ⟨s, a1, a2, a3, a4, a5, a6, rfl, ep, hx, -, kU⟩ := inverse_cases hU
  rcases kU with ⟨-, e⟩ | ⟨-, ⟨h, -⟩ | ⟨h, -⟩⟩
  · rw [ep] at hr ⊢
    have r1 := hr 0 (by omega)
    have r2 := hr 1 (by omega)
    have r3 := hr 2 (by omega)
    have r4 := hr 3 (by omega)
    have r5 := hr 4 (by omega)
    have r6 := hr 5 (by omega)
    have hm : cross3DCenter expansion [[a1], [a2], [a3], [a4], [a5], [a6]] = (a1 + a2 + a3 + a4 + a5 + a6) / 6 * expansion := by
      simp only [cross3DCenter, entry, List.getD_cons_zero, List.getD_cons_succ]; ring
    rw [hm] at r1 r2 r3 r4 r5 r6
    simp only [entry, List.getD_cons_zero, List.getD_cons_succ] at r1 r2 r3 r4 r5 r6
    rw [e]
    generalize separator.getD (3 / 10) = s at *
    have e1 : (assemble (cross3DTile expansion [[a1], [a2], [a3], [a4], [a5], [a6]]) (cross3DDerivative expansion) ss).splines =
        decode (look (inverseVals s ((a1 + a2 + a3 + a4 + a5 + a6) / 6 * expansion) a1 a2 a3 a4 a5 a6)) cross3DCode := by
      simp only [assemble, cross3DTile, hm, entry, List.getD_cons_zero, List.getD_cons_succ]
      exact cross3D_code ..
    rw [e1]
    generalize (a1 + a2 + a3 + a4 + a5 + a6) / 6 * expansion = m at *
    have e2 : decode (look (inverseVals s m a1 a2 a3 a4 a5 a6)) inverseCross3DCode =
        decode (look (inverseVals s m a1 a2 a3 a4 a5 a6)) (decode (via inverseMerge) inverseCross3DCode) := by
      rw [decode_decode]
      refine decode_congr (N := 34) ?_ inverse_sealed_codes.1
      rw [inverseVals, min_eq_left r1, min_eq_left r2, min_eq_left r3, min_eq_left r4, min_eq_left r5, min_eq_left r6]
      intro n hn
      interval_cases n <;> rfl
    rw [e2, decode, decode, ← List.map_append]
    exact sealed_decode rfl rfl inverse_sealed_codes.2
  · cases h
  · cases h

example : (createCross3D (1 : ℚ) (1 / 10) (1 / 2) none none none).isSome = true ∧ (createInverseCross3D (1 : ℚ) (1 / 10) (1 / 2) none none none none).isSome = true ∧
    ∀ i < 6, entry (constant 6 1 (1 / 5)) i 0 ≤ cross3DCenter (1 : ℚ) (constant 6 1 (1 / 5)) := by decide +kernel

end

/-- A branch which is thicker than the center: the two tiles do not fit, although both are accepted. -/
theorem inverse_cross_fits_cross_violates : ∃ T U : Tile ℚ, createCross3D 1 (1 / 10) (1 / 2) none (some [[1 / 5], [1 / 5], [1 / 5], [1 / 5], [1 / 5], [1 / 4]]) none = some T ∧
    createInverseCross3D 1 (1 / 10) (1 / 2) none none (some [[1 / 5], [1 / 5], [1 / 5], [1 / 5], [1 / 5], [1 / 4]]) none = some U ∧ ¬ Sealed (T.splines ++ U.splines) := by
  rw [createCross3D, if_pos (by decide +kernel), createInverseCross3D, if_pos (by decide +kernel)]
  refine ⟨_, _, rfl, rfl, fun hS => ?_⟩
  rcases hS 6 _ rfl _ (List.getElem_mem (n := 0) (by decide +kernel)) with h | ⟨j, Q, hj, hQ, g, hg, hr⟩
  · revert h
    unfold OnCell OnPlane
    decide +kernel
  · have hm := List.mem_eraseIdx_iff_getElem?.2 ⟨j, hj, hQ⟩
    clear hQ hj
    revert g
    refine List.forall_iff_forall_mem.1 ?_
    revert Q
    refine List.forall_iff_forall_mem.1 ?_
    decide +kernel

end Splinepy.Tiles
