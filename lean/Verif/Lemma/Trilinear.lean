import Verif.Props.TileOrient

/-!
Positive Jacobian determinants of trilinear patches: it is enough to look at the determinants of edges.
-/
namespace Splinepy.Tiles

open Spec Splinepy.Spec

/-- determinant of three vectors -/
def det3 {K : Type} [Ring K] (A B C : ℕ → K) : K := A 0 * B 1 * C 2 - A 0 * C 1 * B 2 - B 0 * A 1 * C 2 + B 0 * C 1 * A 2 + C 0 * A 1 * B 2 - C 0 * B 1 * A 2

/-- combination of vectors -/
def vcomb (l : List (ℝ × (ℕ → ℝ))) : ℕ → ℝ := fun j => (l.map fun e => e.1 * e.2 j).sum

theorem det3_congr {A A' B B' C C' : ℕ → ℝ} (hA : ∀ j < 3, A j = A' j) (hB : ∀ j < 3, B j = B' j) (hC : ∀ j < 3, C j = C' j) : det3 A B C = det3 A' B' C' := by
  simp only [det3, hA 0 (by omega), hA 1 (by omega), hA 2 (by omega), hB 0 (by omega), hB 1 (by omega), hB 2 (by omega), hC 0 (by omega), hC 1 (by omega), hC 2 (by omega)]

theorem det3_vcomb_left (L : List (ℝ × (ℕ → ℝ))) (B C : ℕ → ℝ) : det3 (vcomb L) B C = (L.map fun a => a.1 * det3 a.2 B C).sum := by
  induction L with
  | nil => simp [det3, vcomb]
  | cons a L ih =>
    rw [List.map_cons, List.sum_cons, ← ih]
    simp only [det3, vcomb, List.map_cons, List.sum_cons]
    ring

theorem det3_vcomb_mid (L : List (ℝ × (ℕ → ℝ))) (A C : ℕ → ℝ) : det3 A (vcomb L) C = (L.map fun a => a.1 * det3 A a.2 C).sum := by
  induction L with
  | nil => simp [det3, vcomb]
  | cons a L ih =>
    rw [List.map_cons, List.sum_cons, ← ih]
    simp only [det3, vcomb, List.map_cons, List.sum_cons]
    ring

theorem det3_vcomb_right (L : List (ℝ × (ℕ → ℝ))) (A B : ℕ → ℝ) : det3 A B (vcomb L) = (L.map fun a => a.1 * det3 A B a.2).sum := by
  induction L with
  | nil => simp [det3, vcomb]
  | cons a L ih =>
    rw [List.map_cons, List.sum_cons, ← ih]
    simp only [det3, vcomb, List.map_cons, List.sum_cons]
    ring

theorem sum_pos_of {α : Type} (l : List α) (f : α → ℝ) (h : ∀ a ∈ l, 0 ≤ f a) {x : α} (hx : x ∈ l) (hf : 0 < f x) : 0 < (l.map f).sum := by
  refine lt_of_lt_of_le hf (List.single_le_sum ?_ _ (List.mem_map.2 ⟨x, hx, rfl⟩))
  intro y hy
  obtain ⟨a, ha, rfl⟩ := List.mem_map.1 hy
  exact h a ha

theorem sum_nonneg_of {α : Type} (l : List α) (f : α → ℝ) (h : ∀ a ∈ l, 0 ≤ f a) : 0 ≤ (l.map f).sum := by
  refine List.sum_nonneg fun y hy => ?_
  obtain ⟨a, ha, rfl⟩ := List.mem_map.1 hy
  exact h a ha

theorem vcomb_nonneg {L1 L2 L3 : List (ℝ × (ℕ → ℝ))} (w1 : ∀ x ∈ L1, 0 ≤ x.1) (w2 : ∀ x ∈ L2, 0 ≤ x.1) (w3 : ∀ x ∈ L3, 0 ≤ x.1)
    (h : ∀ x ∈ L1, ∀ y ∈ L2, ∀ z ∈ L3, 0 ≤ det3 x.2 y.2 z.2) : 0 ≤ det3 (vcomb L1) (vcomb L2) (vcomb L3) := by
  rw [det3_vcomb_left]
  refine sum_nonneg_of _ _ fun x hx => mul_nonneg (w1 x hx) ?_
  rw [det3_vcomb_mid]
  refine sum_nonneg_of _ _ fun y hy => mul_nonneg (w2 y hy) ?_
  rw [det3_vcomb_right]
  exact sum_nonneg_of _ _ fun z hz => mul_nonneg (w3 z hz) (h x hx y hy z hz)

theorem vcomb_pos {L1 L2 L3 : List (ℝ × (ℕ → ℝ))} (w1 : ∀ x ∈ L1, 0 ≤ x.1) (w2 : ∀ x ∈ L2, 0 ≤ x.1) (w3 : ∀ x ∈ L3, 0 ≤ x.1)
    (h : ∀ x ∈ L1, ∀ y ∈ L2, ∀ z ∈ L3, 0 ≤ det3 x.2 y.2 z.2) {x y z : ℝ × (ℕ → ℝ)} (hx : x ∈ L1) (hy : y ∈ L2) (hz : z ∈ L3) (hx0 : 0 < x.1) (hy0 : 0 < y.1) (hz0 : 0 < z.1)
    (hp : 0 < det3 x.2 y.2 z.2) : 0 < det3 (vcomb L1) (vcomb L2) (vcomb L3) := by
  have n3 : ∀ x ∈ L1, ∀ y ∈ L2, 0 ≤ det3 x.2 y.2 (vcomb L3) := by
    intro x hx y hy
    rw [det3_vcomb_right]
    exact sum_nonneg_of _ _ fun z hz => mul_nonneg (w3 z hz) (h x hx y hy z hz)
  have n2 : ∀ x ∈ L1, 0 ≤ det3 x.2 (vcomb L2) (vcomb L3) := by
    intro x hx
    rw [det3_vcomb_mid]
    exact sum_nonneg_of _ _ fun y hy => mul_nonneg (w2 y hy) (n3 x hx y hy)
  rw [det3_vcomb_left]
  refine sum_pos_of _ _ (fun x hx => mul_nonneg (w1 x hx) (n2 x hx)) hx (mul_pos hx0 ?_)
  rw [det3_vcomb_mid]
  refine sum_pos_of _ _ (fun y hy => mul_nonneg (w2 y hy) (n3 x hx y hy)) hy (mul_pos hy0 ?_)
  rw [det3_vcomb_right]
  exact sum_pos_of _ _ (fun z hz => mul_nonneg (w3 z hz) (h x hx y hy z hz)) hz (mul_pos hz0 hp)

/-! ### trilinear patches -/

/-- first control points of the edges of a trilinear patch in the three directions; the second control point is `1`, `2` or `4` places later -/
def edgeStarts : ℕ → List ℕ
  | 0 => [0, 2, 4, 6]
  | 1 => [0, 1, 4, 5]
  | _ => [0, 1, 2, 3]

/-- an edge of a trilinear patch -/
def edgeOf (cps : List (List ℝ)) (d k : ℕ) : ℕ → ℝ := fun j => (cps.getD (k + 2 ^ d) []).getD j 0 - (cps.getD k []).getD j 0

/-- All determinants of edges are nonnegative, those of the three edges in each corner are positive. -/
def EdgesPositive (cps : List (List ℝ)) : Prop :=
  (∀ a ∈ edgeStarts 0, ∀ b ∈ edgeStarts 1, ∀ c ∈ edgeStarts 2, 0 ≤ det3 (edgeOf cps 0 a) (edgeOf cps 1 b) (edgeOf cps 2 c)) ∧
    ∀ i < 2, ∀ j < 2, ∀ l < 2, 0 < det3 (edgeOf cps 0 (2 * j + 4 * l)) (edgeOf cps 1 (i + 4 * l)) (edgeOf cps 2 (i + 2 * j))

theorem trilinear_right (cps : List (List ℝ)) (hl : cps.length = 8) (h3 : ∀ c ∈ cps, c.length = 3) (h : EdgesPositive cps) : RightHanded 3 ⟨[1, 1, 1], cps⟩ := by
  refine oriented_three rfl h3 fun u v w hu hv hw => ?_
  obtain ⟨hnn, hpos⟩ := h
  have choose : ∀ x : ℝ, 0 ≤ x ∧ x ≤ 1 → ∃ i < 2, 0 < (if i = 0 then 1 - x else x) := by
    intro x hx
    by_cases h : x < 1
    · exact ⟨0, by omega, by simpa using h⟩
    · exact ⟨1, by omega, by simp; linarith⟩
  match cps, hl with
  | [p0, p1, p2, p3, p4, p5, p6, p7], _ =>
    generalize hc : [p0, p1, p2, p3, p4, p5, p6, p7] = cps at hnn hpos
    have e1 : ∀ j, deriv (fun x => point (bezier ⟨[1, 1, 1], cps⟩) [x, v, w] j) u =
        vcomb [((1 - v) * (1 - w), edgeOf cps 0 0), (v * (1 - w), edgeOf cps 0 2), ((1 - v) * w, edgeOf cps 0 4), (v * w, edgeOf cps 0 6)] j := by
      intro j
      subst hc
      rw [deriv_111_0]
      simp only [vcomb, edgeOf, List.map_cons, List.map_nil, List.sum_cons, List.sum_nil, pow_zero, Nat.reduceAdd, List.getD_cons_zero, List.getD_cons_succ]
      ring
    have e2 : ∀ j, deriv (fun x => point (bezier ⟨[1, 1, 1], cps⟩) [u, x, w] j) v =
        vcomb [((1 - u) * (1 - w), edgeOf cps 1 0), (u * (1 - w), edgeOf cps 1 1), ((1 - u) * w, edgeOf cps 1 4), (u * w, edgeOf cps 1 5)] j := by
      intro j
      subst hc
      rw [deriv_111_1]
      simp only [vcomb, edgeOf, List.map_cons, List.map_nil, List.sum_cons, List.sum_nil, pow_one, Nat.reduceAdd, List.getD_cons_zero, List.getD_cons_succ]
      ring
    have e3 : ∀ j, deriv (fun x => point (bezier ⟨[1, 1, 1], cps⟩) [u, v, x] j) w =
        vcomb [((1 - u) * (1 - v), edgeOf cps 2 0), (u * (1 - v), edgeOf cps 2 1), ((1 - u) * v, edgeOf cps 2 2), (u * v, edgeOf cps 2 3)] j := by
      intro j
      subst hc
      rw [deriv_111_2]
      simp only [vcomb, edgeOf, List.map_cons, List.map_nil, List.sum_cons, List.sum_nil, Nat.reducePow, Nat.reduceAdd, List.getD_cons_zero, List.getD_cons_succ]
      ring
    rw [det_three]
    show (0 : ℝ) < det3 (fun j => deriv (fun x => point (bezier ⟨[1, 1, 1], cps⟩) [x, v, w] j) u) (fun j => deriv (fun x => point (bezier ⟨[1, 1, 1], cps⟩) [u, x, w] j) v)
      (fun j => deriv (fun x => point (bezier ⟨[1, 1, 1], cps⟩) [u, v, x] j) w)
    rw [det3_congr (fun j _ => e1 j) (fun j _ => e2 j) (fun j _ => e3 j)]
    have hu0 := hu.1; have hu1 : 0 ≤ 1 - u := by linarith [hu.2]
    have hv0 := hv.1; have hv1 : 0 ≤ 1 - v := by linarith [hv.2]
    have hw0 := hw.1; have hw1 : 0 ≤ 1 - w := by linarith [hw.2]
    obtain ⟨i, hi, hui⟩ := choose u hu
    obtain ⟨j, hj, hvj⟩ := choose v hv
    obtain ⟨l, hl, hwl⟩ := choose w hw
    refine vcomb_pos (x := ((if j = 0 then 1 - v else v) * (if l = 0 then 1 - w else w), edgeOf cps 0 (2 * j + 4 * l)))
      (y := ((if i = 0 then 1 - u else u) * (if l = 0 then 1 - w else w), edgeOf cps 1 (i + 4 * l)))
      (z := ((if i = 0 then 1 - u else u) * (if j = 0 then 1 - v else v), edgeOf cps 2 (i + 2 * j))) ?_ ?_ ?_ ?_ ?_ ?_ ?_ (mul_pos hvj hwl) (mul_pos hui hwl) (mul_pos hui hvj) (hpos i hi j hj l hl)
    · simp only [List.mem_cons, List.not_mem_nil, or_false]; rintro x (rfl | rfl | rfl | rfl) <;> positivity
    · simp only [List.mem_cons, List.not_mem_nil, or_false]; rintro x (rfl | rfl | rfl | rfl) <;> positivity
    · simp only [List.mem_cons, List.not_mem_nil, or_false]; rintro x (rfl | rfl | rfl | rfl) <;> positivity
    · simp only [List.mem_cons, List.not_mem_nil, or_false]
      rintro x (rfl | rfl | rfl | rfl) y (rfl | rfl | rfl | rfl) z (rfl | rfl | rfl | rfl) <;> exact hnn _ (by decide) _ (by decide) _ (by decide)
    · rcases (by omega : j = 0 ∨ j = 1) with rfl | rfl <;> rcases (by omega : l = 0 ∨ l = 1) with rfl | rfl <;> simp
    · rcases (by omega : i = 0 ∨ i = 1) with rfl | rfl <;> rcases (by omega : l = 0 ∨ l = 1) with rfl | rfl <;> simp
    · rcases (by omega : i = 0 ∨ i = 1) with rfl | rfl <;> rcases (by omega : j = 0 ∨ j = 1) with rfl | rfl <;> simp

/-! ### patches with two parameters, of which the coordinates depend in a multilinear way -/

/-- `1 / 2` plus or minus nothing, `t`, `c / 2`, `c t` or `1 / 2` -/
noncomputable def codeValue (t c : ℝ) (n : ℤ) : ℝ :=
  1 / 2 + (n.sign : ℝ) * (match n.natAbs with | 0 => 0 | 1 => t | 2 => c * (1 / 2) | 3 => c * t | _ => 1 / 2)

/-- twice the difference of `codeValue` to `1 / 2` for the extreme values `τ / 2` of `t` and `κ` of `c` -/
def corner (k : ℤ × ℤ) (n : ℤ) : ℤ := n.sign * (match n.natAbs with | 0 => 0 | 1 => k.1 | 2 => k.2 | 3 => k.1 * k.2 | _ => 1)

/-- the extreme values -/
def extremes : List (ℤ × ℤ) := [(0, 0), (0, 1), (1, 0), (1, 1)]

theorem codeValue_corner (t c : ℝ) (n : ℤ) : codeValue t c n - 1 / 2 =
    (1 - 2 * t) * (1 - c) * ((corner (0, 0) n : ℝ) / 2) + (1 - 2 * t) * c * ((corner (0, 1) n : ℝ) / 2) + 2 * t * (1 - c) * ((corner (1, 0) n : ℝ) / 2) + 2 * t * c * ((corner (1, 1) n : ℝ) / 2) := by
  unfold codeValue corner
  rcases n.natAbs with _ | _ | _ | _ | k <;> simp <;> ring

/-- the rows of the coded patch -/
noncomputable def decodeRows (t c : ℝ) (p : List (List ℤ)) : List (List ℝ) := p.map fun r => r.map (codeValue t c)

/-- edges of the coded patch, for extreme values -/
def cornerEdge (p : List (List ℤ)) (d k : ℕ) (e : ℤ × ℤ) : ℤ × ℤ × ℤ :=
  let f := fun j => corner e ((p.getD (k + 2 ^ d) []).getD j 0) - corner e ((p.getD k []).getD j 0)
  (f 0, f 1, f 2)

/-- determinant of integer vectors -/
def detZ (a b c : ℤ × ℤ × ℤ) : ℤ := a.1 * (b.2.1 * c.2.2 - c.2.1 * b.2.2) - b.1 * (a.2.1 * c.2.2 - c.2.1 * a.2.2) + c.1 * (a.2.1 * b.2.2 - b.2.1 * a.2.2)

/-- all edges in one direction for all extreme values, each of them once -/
def cornerEdges (p : List (List ℤ)) (d : ℕ) : List (ℤ × ℤ × ℤ) := ((edgeStarts d).flatMap fun k => extremes.map (cornerEdge p d k)).dedup

/-- the condition on the coded patch, which can be computed -/
def checkPatch (p : List (List ℤ)) : Bool :=
  p.length == 8 && p.all (fun r => r.length == 3) &&
  (cornerEdges p 0).all (fun a => (cornerEdges p 1).all fun b => (cornerEdges p 2).all fun c => decide (0 ≤ detZ a b c)) &&
  (List.range 2).all fun i => (List.range 2).all fun j => (List.range 2).all fun l =>
    extremes.any fun e1 => extremes.any fun e2 => extremes.any fun e3 =>
      decide (0 < detZ (cornerEdge p 0 (2 * j + 4 * l) e1) (cornerEdge p 1 (i + 4 * l) e2) (cornerEdge p 2 (i + 2 * j) e3))

/-- real vector of an integer edge -/
noncomputable def half (a : ℤ × ℤ × ℤ) : ℕ → ℝ
  | 0 => (a.1 : ℝ) / 2
  | 1 => (a.2.1 : ℝ) / 2
  | _ => (a.2.2 : ℝ) / 2

theorem det3_half (a b c : ℤ × ℤ × ℤ) : det3 (half a) (half b) (half c) = (detZ a b c : ℝ) / 8 := by
  simp only [det3, half, detZ]
  push_cast
  ring

/-- weights of the extreme values -/
noncomputable def weight (t c : ℝ) (e : ℤ × ℤ) : ℝ := (if e.1 = 0 then 1 - 2 * t else 2 * t) * (if e.2 = 0 then 1 - c else c)

theorem edge_vcomb (t c : ℝ) (p : List (List ℤ)) (hl : p.length = 8) (h3 : ∀ r ∈ p, r.length = 3) (d k : ℕ) (hk : k + 2 ^ d < 8) :
    ∀ j < 3, edgeOf (decodeRows t c p) d k j = vcomb (extremes.map fun e => (weight t c e, half (cornerEdge p d k e))) j := by
  intro j hj
  have hrow : ∀ i, i < 8 → ((decodeRows t c p).getD i []).getD j 0 = codeValue t c ((p.getD i []).getD j 0) := by
    intro i hi
    have hi' : i < p.length := by omega
    have hj' : j < (p[i]).length := by rw [h3 _ (List.getElem_mem hi')]; exact hj
    rw [decodeRows, List.getD_eq_getElem _ [] (by simpa using hi'), List.getD_eq_getElem p [] hi', List.getElem_map, List.getD_eq_getElem _ 0 (by simpa using hj'), List.getD_eq_getElem _ 0 hj', List.getElem_map]
  have hpos : 0 < 2 ^ d := by positivity
  unfold edgeOf
  rw [hrow _ hk, hrow k (by omega)]
  have h1 := codeValue_corner t c ((p.getD (k + 2 ^ d) []).getD j 0)
  have h2 := codeValue_corner t c ((p.getD k []).getD j 0)
  have hh : ∀ e, half (cornerEdge p d k e) j = ((corner e ((p.getD (k + 2 ^ d) []).getD j 0) : ℝ) - corner e ((p.getD k []).getD j 0)) / 2 := by
    intro e
    rcases (by omega : j = 0 ∨ j = 1 ∨ j = 2) with rfl | rfl | rfl <;> simp [half, cornerEdge]
  simp only [vcomb, extremes, List.map_cons, List.map_nil, List.sum_cons, List.sum_nil, hh, weight, if_true, one_ne_zero, if_false]
  linear_combination h1 - h2

theorem edges_of_check {t c : ℝ} (ht : 0 < t) (ht' : t < 1 / 2) (hc : 0 < c) (hc' : c < 1) {p : List (List ℤ)} (h : checkPatch p = true) :
    (decodeRows t c p).length = 8 ∧ (∀ r ∈ decodeRows t c p, r.length = 3) ∧ EdgesPositive (decodeRows t c p) := by
  simp only [checkPatch, Bool.and_eq_true, beq_iff_eq, List.all_eq_true, List.any_eq_true, decide_eq_true_eq, List.mem_range] at h
  obtain ⟨⟨⟨hl, h3⟩, hnn⟩, hpos⟩ := h
  have hw : ∀ e ∈ extremes, 0 < weight t c e := by
    have a1 : 0 < 1 - 2 * t := by linarith
    have a2 : 0 < 1 - c := by linarith
    simp only [extremes, List.mem_cons, List.not_mem_nil, or_false]
    rintro e (rfl | rfl | rfl | rfl) <;> simp [weight] <;> positivity
  have hmem : ∀ d k, k ∈ edgeStarts d → ∀ e ∈ extremes, cornerEdge p d k e ∈ cornerEdges p d := by
    intro d k hk e he
    exact List.mem_dedup.2 (List.mem_flatMap.2 ⟨k, hk, List.mem_map.2 ⟨e, he, rfl⟩⟩)
  have hnn' : ∀ a ∈ edgeStarts 0, ∀ b ∈ edgeStarts 1, ∀ k ∈ edgeStarts 2, ∀ x ∈ extremes.map (fun e => (weight t c e, half (cornerEdge p 0 a e))),
      ∀ y ∈ extremes.map (fun e => (weight t c e, half (cornerEdge p 1 b e))), ∀ z ∈ extremes.map (fun e => (weight t c e, half (cornerEdge p 2 k e))), 0 ≤ det3 x.2 y.2 z.2 := by
    intro a ha b hb k hk x hx y hy z hz
    obtain ⟨e1, he1, rfl⟩ := List.mem_map.1 hx
    obtain ⟨e2, he2, rfl⟩ := List.mem_map.1 hy
    obtain ⟨e3, he3, rfl⟩ := List.mem_map.1 hz
    rw [det3_half]
    have := hnn _ (hmem 0 a ha e1 he1) _ (hmem 1 b hb e2 he2) _ (hmem 2 k hk e3 he3)
    positivity
  have hwm : ∀ d k, ∀ x ∈ extremes.map (fun e => (weight t c e, half (cornerEdge p d k e))), 0 ≤ x.1 := by
    intro d k x hx
    obtain ⟨e, he, rfl⟩ := List.mem_map.1 hx
    exact (hw e he).le
  have hs0 : ∀ a ∈ edgeStarts 0, a + 2 ^ 0 < 8 := by decide
  have hs1 : ∀ a ∈ edgeStarts 1, a + 2 ^ 1 < 8 := by decide
  have hs2 : ∀ a ∈ edgeStarts 2, a + 2 ^ 2 < 8 := by decide
  refine ⟨by simpa [decodeRows] using hl, ?_, ?_, ?_⟩
  · intro r hr
    obtain ⟨q, hq, rfl⟩ := List.mem_map.1 hr
    simpa using h3 q hq
  · intro a ha b hb k hk
    rw [det3_congr (edge_vcomb t c p hl h3 0 a (hs0 a ha)) (edge_vcomb t c p hl h3 1 b (hs1 b hb)) (edge_vcomb t c p hl h3 2 k (hs2 k hk))]
    exact vcomb_nonneg (hwm 0 a) (hwm 1 b) (hwm 2 k) (hnn' a ha b hb k hk)
  · intro i hi j hj l hl'
    have ha : 2 * j + 4 * l ∈ edgeStarts 0 := by
      rcases (by omega : j = 0 ∨ j = 1) with rfl | rfl <;> rcases (by omega : l = 0 ∨ l = 1) with rfl | rfl <;> decide
    have hb : i + 4 * l ∈ edgeStarts 1 := by
      rcases (by omega : i = 0 ∨ i = 1) with rfl | rfl <;> rcases (by omega : l = 0 ∨ l = 1) with rfl | rfl <;> decide
    have hk : i + 2 * j ∈ edgeStarts 2 := by
      rcases (by omega : i = 0 ∨ i = 1) with rfl | rfl <;> rcases (by omega : j = 0 ∨ j = 1) with rfl | rfl <;> decide
    obtain ⟨e1, he1, e2, he2, e3, he3, hd⟩ := hpos i hi j hj l hl'
    rw [det3_congr (edge_vcomb t c p hl h3 0 _ (hs0 _ ha)) (edge_vcomb t c p hl h3 1 _ (hs1 _ hb)) (edge_vcomb t c p hl h3 2 _ (hs2 _ hk))]
    refine vcomb_pos (hwm 0 _) (hwm 1 _) (hwm 2 _) (hnn' _ ha _ hb _ hk) (List.mem_map.2 ⟨e1, he1, rfl⟩) (List.mem_map.2 ⟨e2, he2, rfl⟩) (List.mem_map.2 ⟨e3, he3, rfl⟩) (hw e1 he1) (hw e2 he2) (hw e3 he3) ?_
    rw [det3_half]
    have : (0 : ℝ) < (detZ (cornerEdge p 0 (2 * j + 4 * l) e1) (cornerEdge p 1 (i + 4 * l) e2) (cornerEdge p 2 (i + 2 * j) e3) : ℝ) := by exact_mod_cast hd
    linarith

/-- A patch whose coordinates are `1 / 2` plus or minus `0`, `t`, `c / 2`, `c t` or `1 / 2` is right-handed, if the check succeeds. -/
theorem right_of_check {t c : ℝ} (ht : 0 < t) (ht' : t < 1 / 2) (hc : 0 < c) (hc' : c < 1) {p : List (List ℤ)} (h : checkPatch p = true) : RightHanded 3 ⟨[1, 1, 1], decodeRows t c p⟩ := by
  obtain ⟨h1, h2, h3⟩ := edges_of_check ht ht' hc hc' h
  exact trilinear_right _ h1 h2 h3

end Splinepy.Tiles
