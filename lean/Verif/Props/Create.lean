import Verif.Model.Create
import Verif.Lemma.Spline

/-!
C49: extruding, embedding, boxes. C65: conversions between spline types. C66: lines.
-/
set_option linter.unusedSectionVars false
namespace Splinepy.Create
open Splinepy.Index (Spline)
open Splinepy.Spec Finset

variable {K : Type} [Field K] [LinearOrder K] [IsStrictOrderedRing K]

/-- all control points have the same number of coordinates, and there is at least one of them -/
def Spec.Rect (s : Spline K (List K)) (n : ℕ) : Prop := s.controlPoints ≠ [] ∧ ∀ p ∈ s.controlPoints, p.length = n

theorem dim_eq {s : Spline K (List K)} {n : ℕ} (h : Spec.Rect s n) : dim s = n := by
  unfold dim
  cases hc : s.controlPoints with
  | nil => exact absurd hc h.1
  | cons p ps => exact h.2 p (by simp [hc])

/-- new direction of an extrusion -/
def Spec.linear (s : Spline K (List K)) : Direction K :=
  ⟨1, match s.knotVectors with | none => none | some _ => some [0, 0, 1, 1]⟩

theorem linear_valid (s : Spline K (List K)) : (Spec.linear s).Valid := by
  intro kv h
  unfold Spec.linear at h ⊢
  cases hk : s.knotVectors with
  | none => simp [hk] at h
  | some kvs =>
    simp only [hk, Option.some.injEq] at h
    subst h
    simp [Direction.lower, Direction.upper, knotSeq]

theorem linear_bounds (s : Spline K (List K)) (t : K) : (Spec.linear s).Contains t ↔ 0 ≤ t ∧ t ≤ 1 := by
  unfold Spec.linear Direction.Contains Direction.lower Direction.upper
  cases s.knotVectors <;> simp [knotSeq]

theorem linear_size (s : Spline K (List K)) : (Spec.linear s).size = 2 := by
  unfold Spec.linear Direction.size
  cases s.knotVectors <;> simp

theorem two_ends_monotone {a b : K} (h : a ≤ b) (p : ℕ) : Monotone (knotSeq (List.replicate (p + 1) a ++ List.replicate (p + 1) b)) := by
  apply KnotInsertion.knotSeq_monotone
  rw [List.pairwise_append]
  refine ⟨by rw [List.pairwise_replicate]; right; exact le_rfl, by rw [List.pairwise_replicate]; right; exact le_rfl, ?_⟩
  intro x hx y hy
  rw [List.eq_of_mem_replicate hx, List.eq_of_mem_replicate hy]
  exact h

theorem two_ends_left (a b : K) (p i : ℕ) (hi : i ≤ p) : knotSeq (List.replicate (p + 1) a ++ List.replicate (p + 1) b) i = a := by
  unfold knotSeq
  rw [List.getD_eq_getElem?_getD, List.getElem?_append_left (by simp; omega), List.getElem?_replicate]
  simp [show i < p + 1 by omega]

theorem two_ends_right (a b : K) (p i : ℕ) (h1 : p + 1 ≤ i) (h2 : i ≤ 2 * p + 1) :
    knotSeq (List.replicate (p + 1) a ++ List.replicate (p + 1) b) i = b := by
  unfold knotSeq
  rw [List.getD_eq_getElem?_getD, List.getElem?_append_right (by simp; omega), List.getElem?_replicate]
  simp [show i - (p + 1) < p + 1 by omega]

/-- a direction with the two ends as only knots -/
theorem two_ends_basis {a b : K} (hab : a < b) (p : ℕ) {x : K} (h0 : a ≤ x) (h1 : x ≤ b) (q : ℕ) (hq : q ≤ p) :
    Direction.basis ⟨p, some (List.replicate (p + 1) a ++ List.replicate (p + 1) b)⟩ x q = bernstein p q a b x := by
  simp only [Direction.basis, List.length_append, List.length_replicate]
  rw [show p + 1 + (p + 1) - p - 1 = p + 1 by omega]
  exact basisC_bernstein hab h0 h1 _ (two_ends_monotone hab.le p) (fun i hi => two_ends_left a b p i hi)
    (fun i h1 h2 => two_ends_right a b p i h1 h2) q hq

theorem linear_basis (s : Spline K (List K)) {t : K} (h0 : 0 ≤ t) (h1 : t ≤ 1) :
    (Spec.linear s).basis t 0 = 1 - t ∧ (Spec.linear s).basis t 1 = t := by
  have e0 : bernstein (K := K) 1 0 0 1 t = 1 - t := by simp [bernstein]
  have e1 : bernstein (K := K) 1 1 0 1 t = t := by simp [bernstein]
  unfold Spec.linear
  cases hk : s.knotVectors with
  | none => simp only [Direction.basis, e0, e1]; exact ⟨trivial, trivial⟩
  | some kvs =>
    have := two_ends_basis (K := K) (a := 0) (b := 1) zero_lt_one 1 h0 h1
    have h0' := this 0 (by omega)
    have h1' := this 1 (by omega)
    rw [e0] at h0'
    rw [e1] at h1'
    exact ⟨h0', h1'⟩

theorem extruded_eq {s : Spline K (List K)} {n : ℕ} (hr : Spec.Rect s n) {v : List K} (hv : n ≤ v.length) :
    extruded s (some v) = some
      { degrees := s.degrees ++ [1]
        knotVectors := s.knotVectors.map (· ++ [[0, 0, 1, 1]])
        weights := s.weights.map (fun w => w ++ w)
        controlPoints := s.controlPoints.map (· ++ List.replicate (v.length - n) 0) ++
          (s.controlPoints.map (· ++ List.replicate (v.length - n) 0)).map (fun p => List.zipWith (· + ·) p v) } := by
  unfold extruded
  simp only [dim_eq hr]
  by_cases h : n = v.length
  · rw [if_pos h]
    subst h
    simp
  · rw [if_neg h, if_pos (by omega)]
    rfl

/-- C49: an extrusion vector is rejected if and only if it is missing or has fewer entries than the spline has coordinates. -/
theorem extruded_rejects_iff {s : Spline K (List K)} {n : ℕ} (hr : Spec.Rect s n) (v : Option (List K)) :
    extruded s v = none ↔ v = none ∨ ∃ w, v = some w ∧ w.length < n := by
  cases v with
  | none => simp [extruded]
  | some v =>
    by_cases h : n ≤ v.length
    · rw [extruded_eq hr h]; simp; omega
    · unfold extruded
      simp only [dim_eq hr]
      rw [if_neg (by omega), if_neg (by omega)]
      simp; omega

section
variable {s s' : Spline K (List K)} {n : ℕ} {v : List K}

theorem extruded_length (hr : Spec.Rect s n) (he : extruded s (some v) = some s') : n ≤ v.length := by
  by_contra h
  have := (extruded_rejects_iff hr (some v)).2 (Or.inr ⟨v, rfl, by omega⟩)
  rw [this] at he
  cases he

theorem extruded_directions (hs : ValidSpline s) (hr : Spec.Rect s n) (he : extruded s (some v) = some s') :
    directions s' = directions s ++ [Spec.linear s] := by
  rw [extruded_eq hr (extruded_length hr he)] at he
  cases he
  apply directions_append s _ (Spec.linear s) hs.knots
  · rfl
  · unfold Spec.linear
    cases hk : s.knotVectors with
    | none => left; simp
    | some kvs => right; exact ⟨kvs, _, rfl, by simp, rfl⟩

/-- C49: the properties of the extruded spline fit each other: it is a valid spline with one more direction and as many coordinates as the extrusion
vector has entries. -/
theorem extruded_valid (hs : ValidSpline s) (hr : Spec.Rect s n) (he : extruded s (some v) = some s') :
    ValidSpline s' ∧ Spec.Rect s' v.length ∧ s'.degrees = s.degrees ++ [1] := by
  have hd := extruded_directions hs hr he
  have hl := extruded_length hr he
  have hn := netSize_append s s' _ hd
  rw [extruded_eq hr hl] at he
  cases he
  refine ⟨⟨?_, ?_, ?_, ?_⟩, ⟨?_, ?_⟩, rfl⟩
  · intro kvs h
    cases hk : s.knotVectors with
    | none => simp [hk] at h
    | some k =>
      simp only [hk, Option.map_some, Option.some.injEq] at h
      subst h
      simp [hs.knots k hk]
  · rw [hd]
    intro d hm
    rw [List.mem_append, List.mem_singleton] at hm
    rcases hm with h | h
    · exact hs.dirs d h
    · subst h; exact linear_valid s
  · rw [hn, List.prod_append, List.prod_singleton, linear_size]
    simp [hs.net]
    ring
  · intro ws h
    cases hw : s.weights with
    | none => simp [hw] at h
    | some w =>
      simp only [hw, Option.map_some, Option.some.injEq] at h
      subst h
      have := hs.weights w hw
      refine ⟨by simp [this.1], ?_⟩
      intro x hx
      rw [List.mem_append, or_self] at hx
      exact this.2 x hx
  · simp [hr.1]
  · intro p hp
    simp only [List.mem_append, List.mem_map] at hp
    rcases hp with ⟨p', hp', rfl⟩ | ⟨_, ⟨p', hp', rfl⟩, rfl⟩
    · simp [hr.2 p' hp']; omega
    · simp [hr.2 p' hp']; omega

theorem getD_pad (p : List K) (m k : ℕ) : (p ++ List.replicate m 0).getD k 0 = p.getD k 0 := by
  rw [List.getD_eq_getElem?_getD, List.getD_eq_getElem?_getD]
  rcases Nat.lt_or_ge k p.length with h | h
  · rw [List.getElem?_append_left h]
  · rw [List.getElem?_append_right h, List.getElem?_eq_none h, List.getElem?_replicate]
    split <;> rfl

theorem getD_zipWith_add (p v : List K) (h : p.length = v.length) (k : ℕ) :
    (List.zipWith (· + ·) p v).getD k 0 = p.getD k 0 + v.getD k 0 := by
  rw [List.getD_eq_getElem?_getD, List.getD_eq_getElem?_getD, List.getD_eq_getElem?_getD, List.getElem?_zipWith]
  rcases Nat.lt_or_ge k p.length with h' | h'
  · rw [List.getElem?_eq_getElem h', List.getElem?_eq_getElem (by omega)]
    rfl
  · rw [List.getElem?_eq_none h', List.getElem?_eq_none (by omega)]
    simp

/-- weights and coordinates of the two layers -/
theorem extruded_layers (hs : ValidSpline s) (hr : Spec.Rect s n) (he : extruded s (some v) = some s') (k l g : ℕ) (hl2 : l < 2)
    (hg : g < (netSize s).prod) : weightAt s' (g + (netSize s).prod * l) = weightAt s g ∧
      (s'.controlPoints.getD (g + (netSize s).prod * l) []).getD k 0 = (s.controlPoints.getD g []).getD k 0 + (l : K) * v.getD k 0 := by
  have hl := extruded_length hr he
  rw [extruded_eq hr hl] at he
  cases he
  set P := (netSize s).prod with hP
  have hlen : s.controlPoints.length = P := hs.net
  have hl01 : l = 0 ∨ l = 1 := by omega
  constructor
  · unfold weightAt
    cases hw : s.weights with
    | none => rfl
    | some ws =>
      have hwl : ws.length = P := by rw [(hs.weights ws hw).1, hlen]
      simp only [Option.map_some]
      rw [List.getD_eq_getElem?_getD, List.getD_eq_getElem?_getD]
      rcases hl01 with rfl | rfl
      · rw [Nat.mul_zero, Nat.add_zero, List.getElem?_append_left (by omega)]
      · rw [Nat.mul_one, List.getElem?_append_right (by omega), hwl, Nat.add_sub_cancel]
  · have hg' : g < s.controlPoints.length := by omega
    have hpl := hr.2 s.controlPoints[g] (List.getElem_mem _)
    rw [List.getD_eq_getElem (l := s.controlPoints) _ hg']
    simp only
    rcases hl01 with rfl | rfl
    · rw [Nat.mul_zero, Nat.add_zero, List.getD_eq_getElem?_getD (l := _ ++ _), List.getElem?_append_left (by simpa using hg'), List.getElem?_map,
        List.getElem?_eq_getElem hg']
      simp only [Option.map_some, Option.getD_some]
      rw [getD_pad]
      simp
    · rw [Nat.mul_one, List.getD_eq_getElem?_getD (l := _ ++ _), List.getElem?_append_right (by simp [hlen]), List.length_map, hlen,
        Nat.add_sub_cancel, List.getElem?_map, List.getElem?_map, List.getElem?_eq_getElem hg']
      simp only [Option.map_some, Option.getD_some]
      rw [getD_zipWith_add _ _ (by simp [hpl]; omega), getD_pad]
      simp

/-- C49: for every valid spline (polynomial or rational, with or without knots), every extrusion vector with at least as many entries as there are
coordinates, every parameter `u` of the domain and `t` in [0, 1], every coordinate `k`: the extruded spline evaluates to `S(u) + t * v`
(missing coordinates of `S` being zero). -/
theorem extruded_evaluates (hs : ValidSpline s) (hr : Spec.Rect s n) (he : extruded s (some v) = some s') {u : List K} (hu : InDomain s u)
    {t : K} (h0 : 0 ≤ t) (h1 : t ≤ 1) (k : ℕ) : point s' (u ++ [t]) k = point s u k + t * v.getD k 0 := by
  have hd := extruded_directions hs hr he
  have hv := (extruded_valid hs hr he).1
  have hu' := inDomain_append s s' _ hd hu ((linear_bounds s t).2 ⟨h0, h1⟩)
  have hlay := extruded_layers hs hr he k
  unfold point
  rw [value_eq hv hu', value_eq hs hu, num_append s s' _ hd hu, num_append s s' _ hd hu, linear_size]
  have hb := linear_basis s h0 h1
  have hden := (den_pos hs hu).ne'
  have hn : ∀ l < 2, ∑ g ∈ range (netSize s).prod, basisProduct (basisValues s u) (digits (netSize s) g) * (weightAt s' (g + (netSize s).prod * l) *
      (s'.controlPoints.getD (g + (netSize s).prod * l) []).getD k 0) =
      num s (fun i => (s.controlPoints.getD i []).getD k 0) u + (l : K) * v.getD k 0 * num s (fun _ => 1) u := by
    intro l hl
    unfold num
    rw [mul_sum, ← sum_add_distrib]
    apply sum_congr rfl
    intro g hg
    obtain ⟨e1, e2⟩ := hlay l g hl (mem_range.1 hg)
    rw [e1, e2]
    ring
  have hn1 : ∀ l < 2, ∑ g ∈ range (netSize s).prod, basisProduct (basisValues s u) (digits (netSize s) g) *
      (weightAt s' (g + (netSize s).prod * l) * 1) = num s (fun _ => 1) u := by
    intro l hl
    unfold num
    apply sum_congr rfl
    intro g hg
    rw [(hlay l g hl (mem_range.1 hg)).1]
  rw [Finset.sum_range_succ, Finset.sum_range_succ, Finset.sum_range_zero, Finset.sum_range_succ, Finset.sum_range_succ, Finset.sum_range_zero]
  rw [hn 0 (by omega), hn 1 (by omega), hn1 0 (by omega), hn1 1 (by omega), hb.1, hb.2]
  have : 0 + (1 - t) * num s (fun _ => 1) u + t * num s (fun _ => 1) u = num s (fun _ => 1) u := by ring
  rw [this, div_eq_iff hden, add_mul, div_mul_cancel₀ _ hden]
  push_cast
  ring

end

/-- an extrusion that meets the hypotheses: a rational curve with an inner knot in the plane, extruded out of the plane -/
example : ∃ s', extruded (K := ℚ) ⟨[1], some [[0, 0, 1, 2, 2]], some [1, 2, 1], [[0, 0], [1, 0], [1, 1]]⟩ (some [0, 1, 2]) = some s' ∧
    ValidSpline (K := ℚ) (P := List ℚ) ⟨[1], some [[0, 0, 1, 2, 2]], some [1, 2, 1], [[0, 0], [1, 0], [1, 1]]⟩ ∧
    Spec.Rect (K := ℚ) ⟨[1], some [[0, 0, 1, 2, 2]], some [1, 2, 1], [[0, 0], [1, 0], [1, 1]]⟩ 2 :=
  ⟨_, rfl,
    { knots := by intro kvs h; cases h; rfl
      dirs := by
        intro d hd
        simp only [directions, List.zipWith_cons_cons, List.zipWith_nil_left, List.mem_singleton] at hd
        subst hd
        intro kv h
        cases h
        decide +kernel
      net := by decide +kernel
      weights := by intro ws h; cases h; decide +kernel }, ⟨by simp, by simp⟩⟩

/-! ### embedded -/

theorem value_zero {s : Spline K (List K)} (hs : ValidSpline s) {u : List K} (hu : InDomain s u) (c : ℕ → K) (h : ∀ i < (netSize s).prod, c i = 0) :
    value s c u = 0 := by
  have := value_affine hs hu 0 0 (fun _ => 0) c (fun i hi => by rw [h i hi]; ring)
  rw [this]; ring

/-- C49: embedding is rejected if and only if the new dimension is below one. -/
theorem embedded_rejects_iff (s : Spline K (List K)) (m : ℤ) : embedded s m = none ↔ m < 1 := by
  unfold embedded
  split
  · simp [*]
  · split
    · simp [*]
    · split <;> simp [*]

theorem take_getD (p : List K) (m k : ℕ) : (p.take m).getD k 0 = if k < m then p.getD k 0 else 0 := by
  rw [List.getD_eq_getElem?_getD, List.getD_eq_getElem?_getD, List.getElem?_take]
  split <;> rfl

theorem embedded_cps {s s' : Spline K (List K)} {n : ℕ} (hr : Spec.Rect s n) {m : ℤ} (he : embedded s m = some s') :
    ∃ f : List K → List K, s' = { s with controlPoints := s.controlPoints.map f } ∧ ∀ p, p.length = n → (f p).length = m.toNat ∧
      ∀ k, (f p).getD k 0 = if k < m.toNat then p.getD k 0 else 0 := by
  unfold embedded at he
  rw [dim_eq hr] at he
  split at he
  · cases he
  · split at he
    · cases he
      refine ⟨_, rfl, fun p hp => ⟨by simp; omega, fun k => take_getD p _ k⟩⟩
    · split at he
      · cases he
        refine ⟨_, rfl, fun p hp => ⟨by simp; omega, fun k => ?_⟩⟩
        rw [getD_pad, take_getD]
      · cases he
        refine ⟨id, by simp, fun p hp => ⟨by simp; omega, fun k => ?_⟩⟩
        simp only [id]
        split
        · rfl
        · rw [List.getD_eq_getElem?_getD, List.getElem?_eq_none (by omega)]; rfl

/-- C49: for every valid spline and every new dimension, the embedded spline is valid with the new number of coordinates, keeps the coordinates that
both have and is zero in the new ones. -/
theorem embedded_evaluates {s s' : Spline K (List K)} {n : ℕ} (hs : ValidSpline s) (hr : Spec.Rect s n) {m : ℤ} (he : embedded s m = some s') :
    ValidSpline s' ∧ Spec.Rect s' m.toNat ∧ ∀ u, InDomain s u → ∀ k, point s' u k = if (k : ℤ) < m then point s u k else 0 := by
  obtain ⟨f, rfl, hf⟩ := embedded_cps hr he
  have hv : ValidSpline ({ s with controlPoints := s.controlPoints.map f } : Spline K (List K)) := by
    refine ⟨hs.knots, hs.dirs, ?_, ?_⟩
    · rw [List.length_map]; exact hs.net
    · intro ws h; rw [List.length_map]; exact hs.weights ws h
  refine ⟨hv, ⟨by simp [hr.1], ?_⟩, ?_⟩
  · intro p hp
    simp only [List.mem_map] at hp
    obtain ⟨q, hq, rfl⟩ := hp
    exact (hf q (hr.2 q hq)).1
  · intro u hu k
    have hco : ∀ i < (netSize s).prod, ((s.controlPoints.map f).getD i []).getD k 0 = if k < m.toNat then (s.controlPoints.getD i []).getD k 0 else 0 := by
      intro i hi
      have hi' : i < s.controlPoints.length := by rw [hs.net]; exact hi
      rw [List.getD_eq_getElem (l := s.controlPoints) _ hi', List.getD_eq_getElem (l := s.controlPoints.map f) _ (by simpa using hi'),
        List.getElem_map]
      exact (hf _ (hr.2 _ (List.getElem_mem _))).2 k
    by_cases hk : (k : ℤ) < m
    · rw [if_pos hk]
      have hk' : k < m.toNat := by omega
      exact value_congr (s := s) (u := u) _ _ (fun i hi => by rw [hco i hi, if_pos hk'])
    · rw [if_neg hk]
      have hk' : ¬ k < m.toNat := by omega
      exact value_zero hs hu _ (fun i hi => by rw [hco i hi, if_neg hk'])

/-! ### box -/

theorem forall₂_append_singleton {α β : Type} {R : α → β → Prop} {as : List α} {b : α} {l : List β} (h : List.Forall₂ R (as ++ [b]) l) :
    ∃ l' x, l = l' ++ [x] ∧ List.Forall₂ R as l' ∧ R b x := by
  induction as generalizing l with
  | nil =>
    cases h with
    | cons h1 h2 => cases h2; exact ⟨[], _, rfl, .nil, h1⟩
  | cons a as ih =>
    cases h with
    | cons h1 h2 =>
      obtain ⟨l', x, rfl, h3, h4⟩ := ih h2
      exact ⟨_ :: l', x, rfl, .cons h1 h3, h4⟩

/-- a spline without knots and weights that maps the parameters to their multiples by `L` -/
structure Spec.IsBox (s : Spline K (List K)) (L : List K) : Prop where
  valid : ValidSpline s
  rect : Spec.Rect s L.length
  degrees : s.degrees = List.replicate L.length 1
  knots : s.knotVectors = none
  weights : s.weights = none
  eval : ∀ u, InDomain s u → ∀ k, point s u k = u.getD k 0 * L.getD k 0

theorem boxLoop_spec (ls : List K) (L : List K) (i : ℕ) (hi : L.length = i + 1) (s : Spline K (List K)) (hs : Spec.IsBox s L) :
    ∃ s', boxLoop i ls s = some s' ∧ Spec.IsBox s' (L ++ ls) := by
  induction ls generalizing L i s with
  | nil => exact ⟨s, rfl, by simpa using hs⟩
  | cons l ls ih =>
    have hvl : (List.replicate (i + 1) (0 : K) ++ [l]).length = i + 2 := by simp
    have hrect : Spec.Rect s (i + 1) := by rw [← hi]; exact hs.rect
    have hlen : i + 1 ≤ (List.replicate (i + 1) (0 : K) ++ [l]).length := by omega
    obtain ⟨s', he⟩ : ∃ s', extruded s (some (List.replicate (i + 1) (0 : K) ++ [l])) = some s' := ⟨_, extruded_eq hrect hlen⟩
    have hv := extruded_valid hs.valid hrect he
    have hd := extruded_directions hs.valid hrect he
    have heq := he
    rw [extruded_eq hrect hlen] at heq
    have hbox : Spec.IsBox s' (L ++ [l]) := by
      refine ⟨hv.1, ?_, ?_, ?_, ?_, ?_⟩
      · rw [List.length_append, hi]; rw [hvl] at hv; exact hv.2.1
      · rw [hv.2.2, hs.degrees, List.length_append, List.replicate_add]; rfl
      · cases heq; simp [hs.knots]
      · cases heq; simp [hs.weights]
      · intro u hu k
        unfold InDomain at hu
        rw [hd] at hu
        obtain ⟨u', t, rfl, hu1, ht⟩ := forall₂_append_singleton hu
        have ht' := (linear_bounds s t).1 ht
        rw [extruded_evaluates hs.valid hrect he hu1 ht'.1 ht'.2 k, hs.eval u' hu1 k]
        have hul : u'.length = i + 1 := by
          have := hu1.length_eq
          rw [← this]
          simp [directions, hs.knots, hs.degrees, hi]
        simp only [List.getD_eq_getElem?_getD]
        rcases Nat.lt_trichotomy k (i + 1) with h | h | h
        · rw [List.getElem?_append_left (by simpa using h), List.getElem?_append_left (by omega), List.getElem?_append_left (by omega),
            List.getElem?_replicate, if_pos h]
          simp
        · subst h
          rw [List.getElem?_append_right (by simp), List.getElem?_append_right (by omega), List.getElem?_append_right (by omega),
            List.getElem?_eq_none (l := L) (by omega), List.getElem?_eq_none (l := u') (by omega), hul, hi]
          simp
        · rw [List.getElem?_eq_none (l := L) (by omega), List.getElem?_eq_none (l := List.replicate (i + 1) 0 ++ [l]) (by simp; omega),
            List.getElem?_eq_none (l := L ++ [l]) (by simp; omega)]
          simp
    obtain ⟨r, h1, h2⟩ := ih (L ++ [l]) (i + 1) (by simp [hi]) s' hbox
    refine ⟨r, ?_, by simpa using h2⟩
    rw [boxLoop, he]
    exact h1

theorem box_start (l : K) : Spec.IsBox (⟨[1], none, none, [[0], [l]]⟩ : Spline K (List K)) [l] := by
  have hv : ValidSpline (⟨[1], none, none, [[0], [l]]⟩ : Spline K (List K)) := by
    refine ⟨?_, ?_, rfl, ?_⟩
    · intro kvs h; cases h
    rotate_left
    · intro ws h; cases h
    intro d hd kv h
    simp only [directions, List.map_cons, List.map_nil, List.mem_singleton] at hd
    subst hd
    cases h
  refine ⟨hv, ⟨by simp, by simp⟩, rfl, rfl, rfl, ?_⟩
  intro u hu k
  unfold point
  rw [value_eq hv hu]
  unfold InDomain at hu
  simp only [directions, List.map_cons, List.map_nil] at hu
  cases hu with
  | cons h1 h2 =>
    cases h2
    rename_i x
    simp only [num, weightAt, netSize, directions, basisValues, List.map_cons, List.map_nil, List.prod_cons, List.prod_nil, Direction.size,
      List.zipWith_cons_cons, List.zipWith_nil_left, digits, basisProduct, Direction.basis, bernstein]
    have h2 : (1 + 1) * 1 = 2 := rfl
    rw [h2, Finset.sum_range_succ, Finset.sum_range_succ, Finset.sum_range_zero, Finset.sum_range_succ, Finset.sum_range_succ, Finset.sum_range_zero]
    rcases k with _ | k <;> simp

/-- C49: for every non-empty list of lengths, `box` returns a valid linear spline in as many dimensions that maps the unit cube affinely onto the box
with these lengths; without lengths it raises. -/
theorem box_evaluates (lengths : List K) (h : lengths ≠ []) : ∃ s, box lengths = some s ∧ ValidSpline s ∧ Spec.Rect s lengths.length ∧
    s.degrees = List.replicate lengths.length 1 ∧ s.knotVectors = none ∧ s.weights = none ∧
    ∀ u : List K, u.length = lengths.length → (∀ x ∈ u, 0 ≤ x ∧ x ≤ 1) → ∀ k, point s u k = u.getD k 0 * lengths.getD k 0 := by
  cases lengths with
  | nil => exact absurd rfl h
  | cons l ls =>
    obtain ⟨s, h1, h2⟩ := boxLoop_spec ls [l] 0 rfl _ (box_start l)
    refine ⟨s, h1, h2.valid, h2.rect, h2.degrees, h2.knots, h2.weights, ?_⟩
    intro u hul hu k
    apply h2.eval
    unfold InDomain directions
    rw [h2.knots, h2.degrees]
    simp only [List.map_replicate]
    rw [List.forall₂_iff_get]
    refine ⟨by simp [hul], fun i hi1 hi2 => ?_⟩
    simp only [List.get_eq_getElem, List.getElem_replicate]
    exact hu _ (List.getElem_mem _)

theorem box_empty : box (K := K) [] = none := rfl

/-! ### bases of different splines agreeing -/

/-- the basis functions of `d` at `x` are those of `d'` at `x'` -/
def SameBasis (p q : Direction K × K) : Prop := p.1.size = q.1.size ∧ ∀ j < p.1.size, p.1.basis p.2 j = q.1.basis q.2 j

theorem basisProduct_same {ds ds' : List (Direction K)} {u u' : List K} (h : List.Forall₂ SameBasis (List.zip ds u) (List.zip ds' u'))
    (hl : ds.length = u.length) (hl' : ds'.length = u'.length) :
    ds.map Direction.size = ds'.map Direction.size ∧ ∀ i < (ds.map Direction.size).prod,
      basisProduct (List.zipWith (fun d x j => d.basis x j) ds u) (digits (ds.map Direction.size) i) =
        basisProduct (List.zipWith (fun d x j => d.basis x j) ds' u') (digits (ds.map Direction.size) i) := by
  induction ds generalizing ds' u u' with
  | nil =>
    have hu : u = [] := List.length_eq_zero_iff.1 hl.symm
    subst hu
    have h' := h.length_eq
    simp only [List.zip_nil_left, List.length_nil, List.length_zip] at h'
    have hz : ds' = [] := List.length_eq_zero_iff.1 (by omega)
    subst hz
    have hu' : u' = [] := List.length_eq_zero_iff.1 hl'.symm
    subst hu'
    simp
  | cons d ds ih =>
    cases u with
    | nil => simp at hl
    | cons x u =>
      cases ds' with
      | nil => have := h.length_eq; simp at this
      | cons d' ds' =>
        cases u' with
        | nil => simp at hl'
        | cons x' u' =>
          rw [List.zip_cons_cons, List.zip_cons_cons, List.forall₂_cons] at h
          obtain ⟨⟨hsz, hb⟩, hrest⟩ := h
          obtain ⟨i1, i2⟩ := ih hrest (by simpa using hl) (by simpa using hl')
          simp only at hsz hb
          refine ⟨by simp [hsz, i1], ?_⟩
          intro i hi
          rw [List.map_cons, List.prod_cons] at hi
          have hr : 0 < d.size := by
            rcases Nat.eq_zero_or_pos d.size with h0 | h0
            · rw [h0] at hi; simp at hi
            · exact h0
          simp only [List.map_cons, digits, basisProduct, List.zipWith_cons_cons, List.prod_cons]
          have := i2 (i / d.size) (Nat.div_lt_of_lt_mul hi)
          unfold basisProduct at this
          rw [this, hb _ (Nat.mod_lt _ hr)]

theorem value_same {P P' : Type} {s : Spline K P} {s' : Spline K P'} {u u' : List K}
    (h : List.Forall₂ SameBasis (List.zip (directions s) u) (List.zip (directions s') u'))
    (hl : (directions s).length = u.length) (hl' : (directions s').length = u'.length) (hw : s.weights = s'.weights) (c : ℕ → K) :
    value s c u = value s' c u' := by
  obtain ⟨h1, h2⟩ := basisProduct_same h hl hl'
  have hn : netSize s = netSize s' := h1
  have key : ∀ F : List K, tensorEval (basisValues s u) (netSize s) F = tensorEval (basisValues s' u') (netSize s') F := by
    intro F
    rw [tensorEval_eq_sum, tensorEval_eq_sum, ← hn]
    apply sum_congr rfl
    intro i hi
    have := h2 i (mem_range.1 hi)
    unfold basisValues netSize
    rw [this]
  unfold value
  rw [hw]
  cases s'.weights with
  | none => simp only [key]; rw [hn]
  | some ws => simp only [key]; rw [hn]

/-! ### conversions -/

theorem withKnotVectors_directions {s : Spline K (List K)} (h : s.knotVectors = none) :
    directions (withKnotVectors s) = s.degrees.map fun p => ⟨p, some (List.replicate (p + 1) 0 ++ List.replicate (p + 1) 1)⟩ := by
  unfold withKnotVectors directions
  simp only [h]
  rw [List.zipWith_map_right, List.zipWith_self]

/-- C65: for every valid spline, the spline with knot vectors (`Bezier.bspline`, `RationalBezier.nurbs`) is valid, has the same domain and the same point
at every parameter. -/
theorem withKnotVectors_evaluates {s : Spline K (List K)} (hs : ValidSpline s) :
    ValidSpline (withKnotVectors s) ∧ (withKnotVectors s).knotVectors.isSome ∧ ∀ u, InDomain s u → InDomain (withKnotVectors s) u ∧
      ∀ k, point (withKnotVectors s) u k = point s u k := by
  cases hk : s.knotVectors with
  | some kvs =>
    have : withKnotVectors s = s := by unfold withKnotVectors; rw [hk]
    rw [this]
    exact ⟨hs, by simp [hk], fun u hu => ⟨hu, fun k => rfl⟩⟩
  | none =>
    have hd := withKnotVectors_directions hk
    have hds : directions s = s.degrees.map fun p => ⟨p, none⟩ := by unfold directions; rw [hk]
    have hw : (withKnotVectors s).weights = s.weights := by unfold withKnotVectors; rw [hk]
    have hc : (withKnotVectors s).controlPoints = s.controlPoints := by unfold withKnotVectors; rw [hk]
    have hn : netSize (withKnotVectors s) = netSize s := by
      unfold netSize
      rw [hd, hds, List.map_map, List.map_map]
      apply List.map_congr_left
      intro p _
      simp [Direction.size]
      omega
    have hb : ∀ p : ℕ, Direction.lower (K := K) ⟨p, some (List.replicate (p + 1) 0 ++ List.replicate (p + 1) 1)⟩ = 0 ∧
        Direction.upper (K := K) ⟨p, some (List.replicate (p + 1) 0 ++ List.replicate (p + 1) 1)⟩ = 1 := by
      intro p
      refine ⟨two_ends_left 0 1 p p le_rfl, ?_⟩
      simp only [Direction.upper]
      exact two_ends_right 0 1 p _ (by simp; omega) (by simp; omega)
    have hdom : ∀ u, InDomain s u → InDomain (withKnotVectors s) u := by
      intro u hu
      unfold InDomain at *
      rw [hds] at hu
      rw [hd]
      rw [List.forall₂_map_left_iff] at *
      apply hu.imp
      intro p x hx
      obtain ⟨h1, h2⟩ := hb p
      exact ⟨by rw [h1]; exact hx.1, by rw [h2]; exact hx.2⟩
    refine ⟨⟨?_, ?_, ?_, ?_⟩, by unfold withKnotVectors; rw [hk]; rfl, fun u hu => ⟨hdom u hu, fun k => ?_⟩⟩
    · intro kvs h
      unfold withKnotVectors at h ⊢
      simp only [hk, Option.some.injEq] at h ⊢
      subst h
      simp
    · rw [hd]
      intro d hm kv hkv
      rw [List.mem_map] at hm
      obtain ⟨p, _, rfl⟩ := hm
      simp only [Option.some.injEq] at hkv
      subst hkv
      refine ⟨?_, by simp; omega, by rw [(hb p).1, (hb p).2]; exact zero_lt_one⟩
      rw [List.pairwise_append]
      refine ⟨by rw [List.pairwise_replicate]; right; exact le_rfl, by rw [List.pairwise_replicate]; right; exact le_rfl, ?_⟩
      intro x hx y hy
      rw [List.eq_of_mem_replicate hx, List.eq_of_mem_replicate hy]
      exact zero_le_one
    · rw [hc, hn]; exact hs.net
    · rw [hw, hc]; exact hs.weights
    · unfold point
      rw [hc]
      apply value_same _ (hdom u hu).length_eq hu.length_eq hw
      unfold InDomain at hu
      rw [hds] at hu ⊢
      rw [hd]
      clear hdom hd hds hn hc hw hk hs
      generalize s.degrees = ps at hu ⊢
      induction ps generalizing u with
      | nil => simp
      | cons p ps ih =>
        cases hu with
        | cons hx hrest =>
          simp only [List.map_cons, List.zip_cons_cons]
          refine .cons ⟨by simp [Direction.size]; omega, fun j hj => ?_⟩ (ih _ hrest)
          simp only [Direction.size, List.length_append, List.length_replicate] at hj
          exact two_ends_basis zero_lt_one p hx.1 hx.2 j (by omega)

/-- C65: weights of one do not change any point. -/
theorem withWeights_evaluates {s : Spline K (List K)} (hs : ValidSpline s) (hp : s.weights = none) :
    ValidSpline (withWeights s) ∧ ∀ u, InDomain s u → InDomain (withWeights s) u ∧ ∀ k, point (withWeights s) u k = point s u k := by
  have hv : ValidSpline (withWeights s) := by
    refine ⟨hs.knots, hs.dirs, hs.net, ?_⟩
    intro ws h
    simp only [withWeights, Option.some.injEq] at h
    subst h
    refine ⟨by simp [withWeights], ?_⟩
    intro w hw
    rw [List.mem_map] at hw
    obtain ⟨_, _, rfl⟩ := hw
    exact zero_lt_one
  refine ⟨hv, fun u hu => ⟨hu, fun k => ?_⟩⟩
  unfold point
  rw [value_eq hv hu, value_eq hs hu]
  have key : ∀ c : ℕ → K, num (withWeights s) c u = num s c u := by
    intro c
    unfold num
    apply sum_congr rfl
    intro i hi
    have hi' : i < s.controlPoints.length := by rw [hs.net]; exact mem_range.1 hi
    have : weightAt (withWeights s) i = weightAt s i := by
      unfold weightAt
      simp only [withWeights, hp]
      rw [List.getD_eq_getElem _ _ (by simpa using hi'), List.getElem_map]
    rw [this]
    rfl
  rw [key, key]
  rfl

/-! ### from_bounds -/

theorem scaleKnots_spec (n : ℕ) (lo up : List K) (hl : n ≤ lo.length) (hu : n ≤ up.length) :
    scaleKnots (List.replicate n [0, 0, 1, 1]) lo up = some ((List.range n).map fun i => [lo.getD i 0, lo.getD i 0, up.getD i 0, up.getD i 0]) := by
  induction n generalizing lo up with
  | zero => simp [scaleKnots]
  | succ n ih =>
    cases lo with
    | nil => simp at hl
    | cons a lo =>
      cases up with
      | nil => simp at hu
      | cons b up =>
        rw [List.replicate_succ, scaleKnots, ih lo up (by simpa using hl) (by simpa using hu), List.range_succ_eq_map]
        simp [Function.comp_def]

/-- C49: for every non-empty physical bounds and every parametric bounds with lower below upper (at least as many as physical ones), `from_bounds`
returns a valid linear spline with these parametric bounds that maps them affinely onto the physical bounds. -/
theorem fromBounds_evaluates (paraLo paraUp physLo physUp : List K) (d : ℕ) (hd : 0 < d) (h1 : physLo.length = d) (h2 : physUp.length = d)
    (h3 : d ≤ paraLo.length) (h4 : d ≤ paraUp.length) (hlt : ∀ i < d, paraLo.getD i 0 < paraUp.getD i 0) :
    ∃ s, fromBounds paraLo paraUp physLo physUp = some s ∧ ValidSpline s ∧ Spec.Rect s d ∧ s.degrees = List.replicate d 1 ∧
      s.knotVectors = some ((List.range d).map fun i => [paraLo.getD i 0, paraLo.getD i 0, paraUp.getD i 0, paraUp.getD i 0]) ∧ s.weights = none ∧
      ∀ u : List K, u.length = d → (∀ i < d, paraLo.getD i 0 ≤ u.getD i 0 ∧ u.getD i 0 ≤ paraUp.getD i 0) →
        InDomain s u ∧ ∀ k < d, point s u k = physLo.getD k 0 +
          (u.getD k 0 - paraLo.getD k 0) / (paraUp.getD k 0 - paraLo.getD k 0) * (physUp.getD k 0 - physLo.getD k 0) := by
  set L := List.zipWith (· - ·) physUp physLo with hL
  have hLl : L.length = d := by simp [hL, h1, h2]
  obtain ⟨b, hb, hbv, hbr, hbd, hbk, hbw, hbe⟩ := box_evaluates L (by intro h; rw [h] at hLl; simp at hLl; omega)
  rw [hLl] at hbr hbd hbe
  set kvs := (List.range d).map fun i => [paraLo.getD i 0, paraLo.getD i 0, paraUp.getD i 0, paraUp.getD i 0] with hkvs
  have hdirb : directions b = List.replicate d ⟨1, none⟩ := by unfold directions; rw [hbk, hbd]; simp
  set s : Spline K (List K) := { withKnotVectors b with controlPoints := b.controlPoints.map (fun p => List.zipWith (· + ·) p physLo), knotVectors := some kvs } with hs
  have hsd : s.degrees = List.replicate d 1 := by simp [hs, withKnotVectors, hbk, hbd]
  have hsw : s.weights = none := by simp [hs, withKnotVectors, hbk, hbw]
  have hdirs : directions s = (List.range d).map fun i => ⟨1, some [paraLo.getD i 0, paraLo.getD i 0, paraUp.getD i 0, paraUp.getD i 0]⟩ := by
    have : directions s = List.zipWith (fun d kv => ⟨d, some kv⟩) s.degrees kvs := rfl
    rw [this, hsd, hkvs]
    apply List.ext_getElem
    · simp
    · intro i hi1 hi2
      simp
  have hnet : netSize s = netSize b := by
    unfold netSize
    rw [hdirs, hdirb, List.map_map, List.map_replicate]
    apply List.ext_getElem
    · simp
    · intro i hi1 hi2
      simp [Direction.size]
  have hfb : fromBounds paraLo paraUp physLo physUp = some s := by
    unfold fromBounds
    rw [← hL, hb]
    have hk : (withKnotVectors b).knotVectors.getD [] = List.replicate d [0, 0, 1, 1] := by
      unfold withKnotVectors
      simp [hbk, hbd]
    have hc : (withKnotVectors b).controlPoints = b.controlPoints := by simp [withKnotVectors, hbk]
    simp only [Option.bind_some]
    rw [hk, scaleKnots_spec d _ _ h3 h4, hc]
    rfl
  have hval : ValidSpline s := by
    refine ⟨?_, ?_, ?_, ?_⟩
    · intro k hk
      have : k = kvs := by simpa [hs] using hk.symm
      subst this
      rw [hsd]; simp [hkvs]
    · rw [hdirs]
      intro dd hm kv hkv
      rw [List.mem_map] at hm
      obtain ⟨i, hi, rfl⟩ := hm
      simp only [Option.some.injEq] at hkv
      subst hkv
      have := hlt i (List.mem_range.1 hi)
      refine ⟨by simpa using this.le, by simp, by simpa [Direction.lower, Direction.upper, knotSeq] using this⟩
    · rw [hnet, ← hbv.net]; simp [hs]
    · intro ws h; rw [hsw] at h; cases h
  refine ⟨s, hfb, hval, ⟨by simp [hs, hbr.1], ?_⟩, hsd, rfl, hsw, ?_⟩
  · intro p hp
    simp only [hs, List.mem_map] at hp
    obtain ⟨q, hq, rfl⟩ := hp
    simp [hbr.2 q hq, h1]
  · intro u hul hu
    have hdom : InDomain s u := by
      unfold InDomain
      rw [hdirs, List.forall₂_iff_get]
      refine ⟨by simp [hul], fun i hi1 hi2 => ?_⟩
      have hi : i < d := by omega
      have := hu i hi
      rw [List.getD_eq_getElem u _ (by omega)] at this
      simp only [List.get_eq_getElem, List.getElem_map, List.getElem_range, Direction.Contains]
      simpa [Direction.lower, Direction.upper, knotSeq] using this
    refine ⟨hdom, fun k hk => ?_⟩
    set u' := (List.range d).map fun i => (u.getD i 0 - paraLo.getD i 0) / (paraUp.getD i 0 - paraLo.getD i 0) with hu'
    have hrange : ∀ x ∈ u', 0 ≤ x ∧ x ≤ 1 := by
      intro x hx
      rw [hu', List.mem_map] at hx
      obtain ⟨i, hi, rfl⟩ := hx
      have hi' := List.mem_range.1 hi
      have a1 := hu i hi'
      have a2 := hlt i hi'
      refine ⟨div_nonneg (by linarith) (by linarith), ?_⟩
      rw [div_le_one (by linarith)]
      linarith
    have hdomb : InDomain b u' := by
      unfold InDomain
      rw [hdirb, List.forall₂_iff_get]
      refine ⟨by simp [hu'], fun i hi1 hi2 => ?_⟩
      simp only [List.get_eq_getElem, List.getElem_replicate]
      exact hrange _ (List.getElem_mem _)
    have hsame : ∀ c : ℕ → K, value s c u = value b c u' := by
      intro c
      apply value_same _ hdom.length_eq hdomb.length_eq (by rw [hsw, hbw])
      rw [List.forall₂_iff_get]
      refine ⟨by simp [hdirs, hdirb, hul, hu'], fun i hi1 hi2 => ?_⟩
      have hi : i < d := by simpa [hdirs, hul] using hi1
      have a1 := hu i hi
      have a2 := hlt i hi
      simp only [List.get_eq_getElem, List.getElem_zip]
      have e1 : (directions s)[i]'(by simp [hdirs, hi]) =
          ⟨1, some [paraLo.getD i 0, paraLo.getD i 0, paraUp.getD i 0, paraUp.getD i 0]⟩ := by simp [hdirs]
      have e2 : (directions b)[i]'(by simp [hdirb, hi]) = ⟨1, none⟩ := by simp [hdirb]
      rw [e1, e2]
      refine ⟨rfl, fun j hj => ?_⟩
      have hj2 : j ≤ 1 := by simp [Direction.size] at hj; omega
      have hx : u[i]'(by omega) = u.getD i 0 := by rw [List.getD_eq_getElem]
      have hx' : u'[i]'(by simp [hu', hi]) = (u.getD i 0 - paraLo.getD i 0) / (paraUp.getD i 0 - paraLo.getD i 0) := by simp [hu']
      simp only [hx, hx']
      have := two_ends_basis a2 1 a1.1 a1.2 j hj2
      refine Eq.trans this ?_
      have hne : paraUp.getD i 0 - paraLo.getD i 0 ≠ 0 := by intro h0; linarith
      simp only [Direction.basis, bernstein, sub_zero, div_one]
      congr 2
      rw [eq_sub_iff_add_eq, ← add_div, div_eq_one_iff_eq hne]
      ring
    unfold point
    rw [hsame]
    have hco : ∀ i < (netSize b).prod, (s.controlPoints.getD i []).getD k 0 = 1 * (b.controlPoints.getD i []).getD k 0 + physLo.getD k 0 := by
      intro i hi
      have hi' : i < b.controlPoints.length := by rw [hbv.net]; exact hi
      have : s.controlPoints = b.controlPoints.map (fun p => List.zipWith (· + ·) p physLo) := rfl
      rw [this, List.getD_eq_getElem (l := b.controlPoints) _ hi', List.getD_eq_getElem (l := List.map _ _) _ (by simpa using hi'), List.getElem_map,
        getD_zipWith_add _ _ (by rw [hbr.2 _ (List.getElem_mem _), h1]), one_mul]
    rw [value_affine hbv hdomb 1 (physLo.getD k 0) _ _ hco, one_mul]
    have hpt : value b (fun i => (b.controlPoints.getD i []).getD k 0) u' = point b u' k := rfl
    rw [hpt, hbe u' (by simp [hu']) hrange k]
    have hLk : L.getD k 0 = physUp.getD k 0 - physLo.getD k 0 := by
      rw [hL, List.getD_eq_getElem _ _ (by simp [h1, h2, hk]), List.getElem_zipWith, List.getD_eq_getElem _ _ (by omega),
        List.getD_eq_getElem _ _ (by omega)]
    have huk : u'.getD k 0 = (u.getD k 0 - paraLo.getD k 0) / (paraUp.getD k 0 - paraLo.getD k 0) := by
      rw [hu', List.getD_eq_getElem _ _ (by simpa using hk)]; simp
    rw [hLk, huk]
    ring

end Splinepy.Create
