import Verif.Model.Revolve
import Verif.Lemma.Spline
import Verif.Lemma.Bernstein
import Verif.Lemma.KnotInsertion
import Mathlib.Tactic.FieldSimp
import Mathlib.Tactic.LinearCombination
import Mathlib.Tactic.IntervalCases

/-!
Lemmas about the layers of a revolved spline.
-/
set_option linter.unusedSectionVars false
namespace Splinepy.Revolve
open Splinepy.Index (Spline)
open Splinepy.Spec Splinepy.Blossom Finset

section
variable {K : Type} [Field K]

/-- axis and points fit: plane points without axis or space points with a unit axis -/
def Fits (axis : Option (List K)) (D : ℕ) : Prop :=
  (axis = none ∧ D = 2) ∨ (∃ a b d, axis = some [a, b, d] ∧ a ^ 2 + b ^ 2 + d ^ 2 = 1 ∧ D = 3)

theorem length_two {p : List K} (h : p.length = 2) : ∃ x y, p = [x, y] := by
  match p, h with
  | [x, y], _ => exact ⟨x, y, rfl⟩

theorem length_three {p : List K} (h : p.length = 3) : ∃ x y z, p = [x, y, z] := by
  match p, h with
  | [x, y, z], _ => exact ⟨x, y, z, rfl⟩

variable {axis : Option (List K)} {D : ℕ}

theorem rotate_length (hf : Fits axis D) (α β : K) {p : List K} (hp : p.length = D) : (rotate axis α β p).length = D := by
  rcases hf with ⟨rfl, rfl⟩ | ⟨a, b, d, rfl, _, rfl⟩
  · obtain ⟨x, y, rfl⟩ := length_two hp; rfl
  · obtain ⟨x, y, z, rfl⟩ := length_three hp; rfl

theorem rotate_rotate (hf : Fits axis D) (α β α' β' : K) {p : List K} (hp : p.length = D) :
    rotate axis α β (rotate axis α' β' p) = rotate axis (α * α' - β * β') (α * β' + β * α') p := by
  rcases hf with ⟨rfl, rfl⟩ | ⟨a, b, d, rfl, h, rfl⟩
  · obtain ⟨x, y, rfl⟩ := length_two hp
    simp only [rotate, List.cons.injEq, and_true]
    constructor <;> ring
  · obtain ⟨x, y, z, rfl⟩ := length_three hp
    simp only [rotate, List.cons.injEq, and_true]
    refine ⟨?_, ?_, ?_⟩
    · linear_combination (β * β' * (-x) + (1 - α) * (1 - α') * (a * x + b * y + d * z) * a) * h
    · linear_combination (β * β' * (-y) + (1 - α) * (1 - α') * (a * x + b * y + d * z) * b) * h
    · linear_combination (β * β' * (-z) + (1 - α) * (1 - α') * (a * x + b * y + d * z) * d) * h

theorem push_rotate (hf : Fits axis D) (f α β : K) {p : List K} (hp : p.length = D) :
    push axis f (rotate axis α β p) = rotate axis (α * f) (β * f) p := by
  rcases hf with ⟨rfl, rfl⟩ | ⟨a, b, d, rfl, h, rfl⟩
  · obtain ⟨x, y, rfl⟩ := length_two hp
    simp only [rotate, push, List.cons.injEq, and_true]
    constructor <;> ring
  · obtain ⟨x, y, z, rfl⟩ := length_three hp
    simp only [rotate, push, List.cons.injEq, and_true]
    refine ⟨?_, ?_, ?_⟩
    · linear_combination (1 - f) * a * (1 - α) * (a * x + b * y + d * z) * h
    · linear_combination (1 - f) * b * (1 - α) * (a * x + b * y + d * z) * h
    · linear_combination (1 - f) * d * (1 - α) * (a * x + b * y + d * z) * h

theorem rotate_one (hf : Fits axis D) {p : List K} (hp : p.length = D) : rotate axis 1 0 p = p := by
  rcases hf with ⟨rfl, rfl⟩ | ⟨a, b, d, rfl, h, rfl⟩
  · obtain ⟨x, y, rfl⟩ := length_two hp
    simp [rotate]
  · obtain ⟨x, y, z, rfl⟩ := length_three hp
    simp [rotate]

/-- powers of a rotation -/
def power (c s : K) : ℕ → K × K
  | 0 => (1, 0)
  | l + 1 => (c * (power c s l).1 - s * (power c s l).2, c * (power c s l).2 + s * (power c s l).1)

/-- scaling of layer `l` -/
def layerFactor (f : K) (l : ℕ) : K := if l % 2 = 1 then f else 1

theorem segments_eq (hf : Fits axis D) (c s f : K) (n : ℕ) (m : ℕ) (hm : m % 2 = 0) (cps : List (List K)) (hc : ∀ p ∈ cps, p.length = D) :
    segments axis c s f n (cps.map (rotate axis (power c s m).1 (power c s m).2)) =
      ((List.range (2 * n)).map fun l => cps.map (rotate axis ((power c s (m + l + 1)).1 * layerFactor f (m + l + 1))
        ((power c s (m + l + 1)).2 * layerFactor f (m + l + 1)))).flatten := by
  induction n generalizing m with
  | zero => simp [segments]
  | succ n ih =>
    have e1 : (cps.map (rotate axis (power c s m).1 (power c s m).2)).map (rotate axis c s) =
        cps.map (rotate axis (power c s (m + 1)).1 (power c s (m + 1)).2) := by
      rw [List.map_map]
      apply List.map_congr_left
      intro p hp
      simp only [Function.comp_apply]
      rw [rotate_rotate hf _ _ _ _ (hc p hp)]
      simp [power]
    have e2 : (cps.map (rotate axis (power c s (m + 1)).1 (power c s (m + 1)).2)).map (rotate axis c s) =
        cps.map (rotate axis (power c s (m + 2)).1 (power c s (m + 2)).2) := by
      rw [List.map_map]
      apply List.map_congr_left
      intro p hp
      simp only [Function.comp_apply]
      rw [rotate_rotate hf _ _ _ _ (hc p hp)]
      simp [power]
    have e3 : (cps.map (rotate axis (power c s (m + 1)).1 (power c s (m + 1)).2)).map (push axis f) =
        cps.map (rotate axis ((power c s (m + 1)).1 * layerFactor f (m + 1)) ((power c s (m + 1)).2 * layerFactor f (m + 1))) := by
      rw [List.map_map]
      apply List.map_congr_left
      intro p hp
      simp only [Function.comp_apply]
      rw [push_rotate hf _ _ _ (hc p hp), layerFactor, if_pos (by omega)]
    rw [segments, e1, e2, e3, ih (m + 2) (by omega)]
    rw [show 2 * (n + 1) = (2 * n + 1) + 1 by ring, List.range_succ_eq_map, List.range_succ_eq_map]
    simp only [List.map_cons, List.map_map, List.flatten_cons, List.append_assoc]
    congr 2
    · rw [show m + Nat.succ 0 + 1 = m + 2 from rfl, layerFactor, if_neg (by omega)]
      simp
    · congr 1
      apply List.map_congr_left
      intro l _
      simp only [Function.comp_apply]
      rw [show m + 2 + l + 1 = m + (l.succ).succ + 1 by omega]

/-- all layers of control points -/
theorem points_layers (hf : Fits axis D) (c s f : K) (n : ℕ) (cps : List (List K)) (hc : ∀ p ∈ cps, p.length = D) :
    cps ++ segments axis c s f n cps = ((List.range (2 * n + 1)).map fun l => cps.map (rotate axis ((power c s l).1 * layerFactor f l)
      ((power c s l).2 * layerFactor f l))).flatten := by
  have e0 : cps.map (rotate axis (power c s 0).1 (power c s 0).2) = cps := by
    refine Eq.trans (List.map_congr_left (g := id) fun p hp => ?_) (List.map_id _)
    exact rotate_one hf (hc p hp)
  have := segments_eq hf c s f n 0 rfl cps hc
  rw [e0] at this
  rw [this, List.range_succ_eq_map]
  simp only [List.map_cons, List.map_map, List.flatten_cons]
  congr 1
  · conv_lhs => rw [← e0]
    simp [layerFactor]
  · congr 1
    apply List.map_congr_left
    intro l _
    simp

theorem spanWeights_eq (w : K) (ws : List K) (n : ℕ) (m : ℕ) (hm : m % 2 = 0) :
    spanWeights w ws n ((List.range (m + 1)).map fun l => ws.map (· * layerFactor w l)).flatten =
      ((List.range (m + 2 * n + 1)).map fun l => ws.map (· * layerFactor w l)).flatten := by
  induction n generalizing m with
  | zero => rfl
  | succ n ih =>
    rw [spanWeights]
    have e : ((List.range (m + 1)).map fun l => ws.map (· * layerFactor w l)).flatten ++ ws.map (· * w) ++ ws =
        ((List.range (m + 2 + 1)).map fun l => ws.map (· * layerFactor w l)).flatten := by
      rw [List.range_succ (n := m + 2), List.range_succ (n := m + 1)]
      simp only [List.map_append, List.flatten_append, List.map_cons, List.map_nil, List.flatten_cons, List.flatten_nil, List.append_nil]
      congr 1
      · congr 1
        simp [layerFactor, show (m + 1) % 2 = 1 by omega]
      · simp [layerFactor, show (m + 2) % 2 = 0 by omega]
    rw [e, ih (m + 2) (by omega), show m + 2 + 2 * n + 1 = m + 2 * (n + 1) + 1 by ring]

/-- all layers of weights -/
theorem weights_layers (w : K) (ws : List K) (n : ℕ) :
    spanWeights w ws n ws = ((List.range (2 * n + 1)).map fun l => ws.map (· * layerFactor w l)).flatten := by
  have := spanWeights_eq w ws n 0 rfl
  simp only [Nat.zero_add] at this
  rw [← this]
  congr 1
  simp [layerFactor]

theorem flatten_length {α β : Type} (m : ℕ) (xs : List α) (F : ℕ → α → β) : (((List.range m).map fun l => xs.map (F l)).flatten).length = m * xs.length := by
  induction m with
  | zero => simp
  | succ m ih => rw [List.range_succ, List.map_append, List.flatten_append, List.length_append, ih]; simp; ring

/-- entry of a layer -/
theorem flatten_entry {α β : Type} (m : ℕ) (xs : List α) (F : ℕ → α → β) (l g : ℕ) (hl : l < m) (hg : g < xs.length) :
    (((List.range m).map fun l => xs.map (F l)).flatten)[g + xs.length * l]? = some (F l xs[g]) := by
  induction m with
  | zero => omega
  | succ m ih =>
    rw [List.range_succ, List.map_append, List.flatten_append]
    have hlen := flatten_length m xs F
    rcases Nat.lt_or_ge l m with h | h
    · rw [List.getElem?_append_left, ih h]
      rw [hlen]
      calc g + xs.length * l < xs.length + xs.length * l := by omega
        _ = (l + 1) * xs.length := by ring
        _ ≤ m * xs.length := Nat.mul_le_mul_right _ h
    · have : l = m := by omega
      subst this
      rw [List.getElem?_append_right (by rw [hlen, Nat.mul_comm]; omega), hlen, Nat.mul_comm l, Nat.add_sub_cancel]
      simp [hg]

end

section
variable {K : Type} [Field K] [LinearOrder K] [IsStrictOrderedRing K]

/-! ### the new direction -/

theorem pairs_flatten (f : ℕ → K) (m : ℕ) : (((List.range m).map fun i => [f i, f i]).flatten) = (List.range (2 * m)).map fun j => f (j / 2) := by
  induction m with
  | zero => rfl
  | succ m ih =>
    rw [List.range_succ, List.map_append, List.flatten_append, ih, show 2 * (m + 1) = 2 * m + 1 + 1 by ring, List.range_succ, List.range_succ]
    simp [show (2 * m + 1) / 2 = m by omega]

theorem spanKnots_length (n : ℕ) (hn : 1 ≤ n) : (spanKnots (K := K) n).length = 2 * n + 4 := by
  unfold spanKnots
  rw [pairs_flatten (fun i => (i : K) + 1)]
  simp
  omega

theorem spanKnots_at (n : ℕ) (hn : 1 ≤ n) (j : ℕ) : knotSeq (spanKnots (K := K) n) j = ((min n ((j - 1) / 2) : ℕ) : K) := by
  have hl := spanKnots_length (K := K) n hn
  have hlast : (spanKnots (K := K) n).getLastD 0 = n := by
    rw [List.getLastD_eq_getLast?]
    unfold spanKnots
    rw [List.getLast?_append]
    simp
  unfold knotSeq
  rw [hlast, List.getD_eq_getElem?_getD]
  rcases Nat.lt_or_ge j (2 * n + 4) with h | h
  · unfold spanKnots
    rw [pairs_flatten (fun i => (i : K) + 1)]
    rcases Nat.lt_or_ge j 3 with h3 | h3
    · rw [List.append_assoc, List.getElem?_append_left (by simpa using h3)]
      have : (j - 1) / 2 = 0 := by omega
      rw [this]
      interval_cases j <;> simp
    · rcases Nat.lt_or_ge j (2 * n + 1) with h4 | h4
      · rw [List.append_assoc, List.getElem?_append_right (by simpa using h3), List.getElem?_append_left (by simp; omega)]
        simp only [List.length_cons, List.length_nil, List.getElem?_map]
        rw [List.getElem?_eq_getElem (by simp; omega)]
        simp only [List.getElem_range, Option.map_some, Option.getD_some]
        have : min n ((j - 1) / 2) = (j - (0 + 1 + 1 + 1)) / 2 + 1 := by omega
        rw [this]
        push_cast
        rfl
      · rw [List.getElem?_append_right (by simp; omega), List.getElem?_replicate, if_pos (by simp; omega)]
        have : min n ((j - 1) / 2) = n := by omega
        rw [this]
        rfl
  · rw [List.getElem?_eq_none (by omega)]
    have : min n ((j - 1) / 2) = n := by omega
    rw [this]
    rfl

theorem spanKnots_mono (n : ℕ) (hn : 1 ≤ n) : Monotone (knotSeq (spanKnots (K := K) n)) := by
  intro i j hij
  rw [spanKnots_at n hn, spanKnots_at n hn]
  have : min n ((i - 1) / 2) ≤ min n ((j - 1) / 2) := by omega
  exact_mod_cast this

theorem spanKnots_sorted (n : ℕ) (hn : 1 ≤ n) : (spanKnots (K := K) n).Pairwise (· ≤ ·) := by
  rw [List.pairwise_iff_getElem]
  intro i j hi hj hij
  have := spanKnots_mono (K := K) n hn hij.le
  unfold knotSeq at this
  rwa [List.getD_eq_getElem _ _ hi, List.getD_eq_getElem _ _ hj] at this

/-- direction of the revolution -/
def spanDirection (knots : Bool) (n : ℕ) : Direction K := ⟨2, if knots then some (spanKnots n) else none⟩

theorem spanDirection_size (knots : Bool) (n : ℕ) (hn : 1 ≤ n) (hk : knots = false → n = 1) : (spanDirection (K := K) knots n).size = 2 * n + 1 := by
  cases knots with
  | true => simp [spanDirection, Direction.size, spanKnots_length n hn]
  | false => simp [spanDirection, Direction.size, hk rfl]

theorem spanDirection_lower (knots : Bool) (n : ℕ) (hn : 1 ≤ n) : (spanDirection (K := K) knots n).lower = 0 := by
  cases knots with
  | true => simp [spanDirection, Direction.lower, spanKnots_at n hn]
  | false => simp [spanDirection, Direction.lower]

theorem spanDirection_upper (knots : Bool) (n : ℕ) (hn : 1 ≤ n) (hk : knots = false → n = 1) : (spanDirection (K := K) knots n).upper = n := by
  cases knots with
  | true =>
    simp only [spanDirection, if_true, Direction.upper, spanKnots_length n hn]
    rw [spanKnots_at n hn]
    have : min n ((2 * n + 4 - 2 - 1 - 1) / 2) = n := by omega
    rw [this]
  | false => simp [spanDirection, Direction.upper, hk rfl]

theorem spanDirection_valid (knots : Bool) (n : ℕ) (hn : 1 ≤ n) (hk : knots = false → n = 1) : (spanDirection (K := K) knots n).Valid := by
  intro kv h
  refine ⟨?_, ?_, ?_⟩
  · cases knots with
    | true => simp only [spanDirection, if_true, Option.some.injEq] at h; subst h; exact spanKnots_sorted n hn
    | false => simp [spanDirection] at h
  · cases knots with
    | true => simp only [spanDirection, if_true, Option.some.injEq] at h; subst h; rw [spanKnots_length n hn]; simp only [spanDirection]; omega
    | false => simp [spanDirection] at h
  · rw [spanDirection_lower knots n hn, spanDirection_upper knots n hn hk]
    exact_mod_cast hn

/-- on one span the basis of the new direction is the quadratic Bernstein basis -/
theorem span_basis (knots : Bool) (n : ℕ) (hn : 1 ≤ n) (hk : knots = false → n = 1) {v : K} (h0 : 0 ≤ v) (h1 : v ≤ n) :
    ∃ i < n, (i : K) ≤ v ∧ v ≤ i + 1 ∧ ∀ F : ℕ → K, ∑ l ∈ range (2 * n + 1), (spanDirection (K := K) knots n).basis v l * F l =
      (1 - (v - i)) ^ 2 * F (2 * i) + 2 * (v - i) * (1 - (v - i)) * F (2 * i + 1) + (v - i) ^ 2 * F (2 * i + 2) := by
  cases knots with
  | false =>
    have hn1 := hk rfl
    subst hn1
    refine ⟨0, by omega, by simpa using h0, by simpa using h1, fun F => ?_⟩
    rw [show 2 * 1 + 1 = 3 from rfl, sum_range_succ, sum_range_succ, sum_range_succ, sum_range_zero]
    simp [spanDirection, Direction.basis, bernstein]
  | true =>
    set t := knotSeq (spanKnots (K := K) n) with ht
    have hmono : Monotone t := spanKnots_mono n hn
    have t2 : t 2 = 0 := by rw [ht, spanKnots_at n hn]; simp
    have tn : t (2 * n + 1) = n := by
      rw [ht, spanKnots_at n hn]
      have : min n ((2 * n + 1 - 1) / 2) = n := by omega
      rw [this]
    obtain ⟨μ, hμ2, hμn, hlt, ha, hb, hbas⟩ := basisC_span hmono (p := 2) (n := 2 * n + 1) (x := v)
      (by rw [t2, tn]; exact_mod_cast hn) (by rw [t2]; exact h0) (by rw [tn]; exact h1)
    rw [ht, spanKnots_at n hn, spanKnots_at n hn] at hlt
    have hlt' : min n ((μ - 1) / 2) < min n ((μ + 1 - 1) / 2) := by exact_mod_cast hlt
    obtain ⟨i, hi⟩ : ∃ i, μ = 2 * i + 2 := ⟨(μ - 2) / 2, by omega⟩
    subst hi
    have hin : i < n := by omega
    have tlo : ∀ j, 2 * i + 2 + 1 ≤ j + 2 → j ≤ 2 * i + 2 → t j = i := by
      intro j h1 h2
      rw [ht, spanKnots_at n hn]
      have : min n ((j - 1) / 2) = i := by omega
      rw [this]
    have thi : ∀ j, 2 * i + 2 + 1 ≤ j → j ≤ 2 * i + 2 + 2 → t j = ((i : K) + 1) := by
      intro j h1 h2
      rw [ht, spanKnots_at n hn]
      have : min n ((j - 1) / 2) = i + 1 := by omega
      rw [this]
      push_cast
      rfl
    rw [tlo _ (by omega) (by omega)] at ha
    rw [thi _ (by omega) (by omega)] at hb
    refine ⟨i, hin, ha, hb, fun F => ?_⟩
    have hbl : ∀ l, (spanDirection (K := K) true n).basis v l = bl t (2 * i + 2) (fun _ => v) 2 l := by
      intro l
      simp only [spanDirection, if_true, Direction.basis, spanKnots_length n hn]
      rw [show 2 * n + 4 - 2 - 1 = 2 * n + 1 by omega]
      exact hbas 2 l
    have hber : ∀ q ≤ 2, bl t (2 * i + 2) (fun _ => v) 2 (2 * i + 2 - 2 + q) = bernstein 2 q (i : K) ((i : K) + 1) v :=
      fun q hq => bl_bernstein (by omega) tlo thi 2 le_rfl q hq
    simp only [hbl]
    have hsub : ({2 * i, 2 * i + 1, 2 * i + 2} : Finset ℕ) ⊆ range (2 * n + 1) := by
      intro j hj
      simp only [mem_insert, mem_singleton] at hj
      rw [mem_range]
      omega
    rw [← sum_subset hsub]
    · rw [sum_insert (by simp), sum_insert (by simp), sum_singleton]
      have b0 := hber 0 (by omega)
      have b1 := hber 1 (by omega)
      have b2 := hber 2 (by omega)
      rw [show 2 * i + 2 - 2 + 0 = 2 * i by omega] at b0
      rw [show 2 * i + 2 - 2 + 1 = 2 * i + 1 by omega] at b1
      rw [show 2 * i + 2 - 2 + 2 = 2 * i + 2 by omega] at b2
      rw [b0, b1, b2]
      simp [bernstein]
      ring
    · intro j _ hj
      simp only [mem_insert, mem_singleton] at hj
      have : bl t (2 * i + 2) (fun _ => v) 2 j = 0 := by
        by_contra hne
        have := supp_bl _ _ _ 2 j hne
        omega
      rw [this, zero_mul]

/-! ### linearity -/

theorem value_comb {s : Spline K (List K)} (hs : ValidSpline s) {u : List K} (hu : InDomain s u) (a b d e : K) (x y z c : ℕ → K)
    (h : ∀ g < (netSize s).prod, c g = a * x g + b * y g + d * z g + e) :
    value s c u = a * value s x u + b * value s y u + d * value s z u + e := by
  rw [value_eq hs hu, value_eq hs hu, value_eq hs hu, value_eq hs hu]
  have hden := (den_pos hs hu).ne'
  have hn : num s c u = a * num s x u + b * num s y u + d * num s z u + e * num s (fun _ => 1) u := by
    unfold num
    rw [mul_sum, mul_sum, mul_sum, mul_sum, ← sum_add_distrib, ← sum_add_distrib, ← sum_add_distrib]
    apply sum_congr rfl
    intro g hg
    rw [h g (mem_range.1 hg)]
    ring
  rw [hn]
  field_simp

variable {axis : Option (List K)} {D : ℕ}

/-- a rotation may be pulled out of the spline -/
theorem value_rotate {s : Spline K (List K)} (hs : ValidSpline s) {u : List K} (hu : InDomain s u) (hf : Fits axis D) (α β e : K)
    (P : ℕ → List K) (hP : ∀ g < (netSize s).prod, (P g).length = D) (k : ℕ) (hk : k < D) :
    value s (fun g => (rotate axis α β (P g)).getD k 0 + e) u =
      (rotate axis α β ((List.range D).map fun j => value s (fun g => (P g).getD j 0) u)).getD k 0 + e := by
  set x := fun g => (P g).getD 0 0 with hx
  set y := fun g => (P g).getD 1 0 with hy
  set z := fun g => (P g).getD 2 0 with hz
  rcases hf with ⟨rfl, rfl⟩ | ⟨a, b, d, rfl, h, rfl⟩
  · have hr : ∀ g < (netSize s).prod, P g = [x g, y g] := by
      intro g hg
      obtain ⟨p, q, h⟩ := length_two (hP g hg)
      simp [hx, hy, h]
    have e1 : (List.range 2).map (fun j => value s (fun g => (P g).getD j 0) u) = [value s x u, value s y u] := rfl
    rw [e1]
    have hk' : k = 0 ∨ k = 1 := by omega
    rcases hk' with rfl | rfl
    · rw [value_comb hs hu α (-β) 0 e x y z]
      · simp [rotate]; ring
      · intro g hg; rw [hr g hg]; simp [rotate]; ring
    · rw [value_comb hs hu β α 0 e x y z]
      · simp [rotate]
      · intro g hg; rw [hr g hg]; simp [rotate]
  · have hr : ∀ g < (netSize s).prod, P g = [x g, y g, z g] := by
      intro g hg
      obtain ⟨p, q, r, h⟩ := length_three (hP g hg)
      simp [hx, hy, hz, h]
    have e1 : (List.range 3).map (fun j => value s (fun g => (P g).getD j 0) u) = [value s x u, value s y u, value s z u] := rfl
    rw [e1]
    have hk' : k = 0 ∨ k = 1 ∨ k = 2 := by omega
    rcases hk' with rfl | rfl | rfl
    · rw [value_comb hs hu (α + (1 - α) * a * a) (-β * d + (1 - α) * b * a) (β * b + (1 - α) * d * a) e x y z]
      · simp [rotate]; ring
      · intro g hg; rw [hr g hg]; simp [rotate]; ring
    · rw [value_comb hs hu (β * d + (1 - α) * a * b) (α + (1 - α) * b * b) (-β * a + (1 - α) * d * b) e x y z]
      · simp [rotate]; ring
      · intro g hg; rw [hr g hg]; simp [rotate]; ring
    · rw [value_comb hs hu (-β * b + (1 - α) * a * d) (β * a + (1 - α) * b * d) (α + (1 - α) * d * d) e x y z]
      · simp [rotate]; ring
      · intro g hg; rw [hr g hg]; simp [rotate]; ring

/-- averages of rotations -/
theorem rotate_average (hf : Fits axis D) {p : List K} (hp : p.length = D) (ν0 ν1 ν2 α0 α1 α2 β0 β1 β2 : K) (hν : ν0 + ν1 + ν2 = 1) (k : ℕ) (hk : k < D) :
    ν0 * (rotate axis α0 β0 p).getD k 0 + ν1 * (rotate axis α1 β1 p).getD k 0 + ν2 * (rotate axis α2 β2 p).getD k 0 =
      (rotate axis (ν0 * α0 + ν1 * α1 + ν2 * α2) (ν0 * β0 + ν1 * β1 + ν2 * β2) p).getD k 0 := by
  rcases hf with ⟨rfl, rfl⟩ | ⟨a, b, d, rfl, h, rfl⟩
  · obtain ⟨x, y, rfl⟩ := length_two hp
    have hk' : k = 0 ∨ k = 1 := by omega
    rcases hk' with rfl | rfl <;> simp [rotate] <;> ring
  · obtain ⟨x, y, z, rfl⟩ := length_three hp
    have hk' : k = 0 ∨ k = 1 ∨ k = 2 := by omega
    rcases hk' with rfl | rfl | rfl <;> simp [rotate]
    · linear_combination (a * x + b * y + d * z) * a * hν
    · linear_combination (a * x + b * y + d * z) * b * hν
    · linear_combination (a * x + b * y + d * z) * d * hν

/-! ### the built spline -/

/-- coordinate `k` of the center -/
def centerAt (center : Option (List K)) (k : ℕ) : K :=
  match center with
  | none => 0
  | some ctr => ctr.getD k 0

/-- moving back to the center -/
def shift (center : Option (List K)) (p : List K) : List K :=
  match center with
  | none => p
  | some ctr => List.zipWith (· + ·) p ctr

section
variable {s : Spline K (List K)} {ws : List K} (hs : ValidSpline s) (hw : s.weights = some ws) (hf : Fits axis D) {center : Option (List K)}
  (hctr : ∀ ctr, center = some ctr → ctr.length = D) {cps : List (List K)} (hc : ∀ p ∈ cps, p.length = D) (hcl : cps.length = s.controlPoints.length)
  (c sn w : K) (hwp : 0 < w) (n : ℕ) (hn : 1 ≤ n) (hk : s.knotVectors.isSome = false → n = 1)

include hs in
theorem build_directions : directions (build s axis center c sn w n cps) = directions s ++ [spanDirection s.knotVectors.isSome n] := by
  apply directions_append s _ _ hs.knots
  · rfl
  · cases h : s.knotVectors with
    | none => left; simp [build, h, spanDirection]
    | some kvs => right; exact ⟨kvs, spanKnots n, rfl, by simp [build, h], by simp [spanDirection]⟩

include hf hc in
theorem build_cps : (build s axis center c sn w n cps).controlPoints = ((List.range (2 * n + 1)).map fun l => cps.map fun p =>
    shift center (rotate axis ((power c sn l).1 * layerFactor (1 / w) l) ((power c sn l).2 * layerFactor (1 / w) l) p)).flatten := by
  unfold build
  rw [points_layers hf c sn (1 / w) n cps hc]
  cases center with
  | none => rfl
  | some ctr =>
    simp only
    rw [List.map_flatten, List.map_map]
    congr 1
    apply List.map_congr_left
    intro l _
    simp [Function.comp_def, shift]

include hs hw hf hctr hc hcl hwp hn hk in
theorem build_valid : ValidSpline (build s axis center c sn w n cps) ∧ (build s axis center c sn w n cps).controlPoints.length = (2 * n + 1) * cps.length ∧
    ∀ p ∈ (build s axis center c sn w n cps).controlPoints, p.length = D := by
  have hd := build_directions (axis := axis) hs (center := center) (cps := cps) c sn w n
  have hcp := build_cps (s := s) hf (center := center) hc c sn w n
  have hlen : (build s axis center c sn w n cps).controlPoints.length = (2 * n + 1) * cps.length := by rw [hcp, flatten_length]
  refine ⟨⟨?_, ?_, ?_, ?_⟩, hlen, ?_⟩
  · intro kvs h
    cases hkv : s.knotVectors with
    | none => simp [build, hkv] at h
    | some k =>
      simp only [build, hkv, Option.map_some, Option.some.injEq] at h
      subst h
      simp [build, hs.knots k hkv]
  · rw [hd]
    intro d hm
    rw [List.mem_append, List.mem_singleton] at hm
    rcases hm with h | h
    · exact hs.dirs d h
    · subst h; exact spanDirection_valid _ n hn hk
  · rw [hlen, netSize_append s _ _ hd, List.prod_append, List.prod_singleton, spanDirection_size _ n hn hk, hcl, hs.net, Nat.mul_comm]
  · intro ws' h
    simp only [build, hw, Option.map_some, Option.some.injEq] at h
    subst h
    obtain ⟨h1, h2⟩ := hs.weights ws hw
    rw [weights_layers]
    refine ⟨by rw [flatten_length, hlen, h1, hcl], ?_⟩
    intro x hx
    rw [List.mem_flatten] at hx
    obtain ⟨l, hl, hx⟩ := hx
    rw [List.mem_map] at hl
    obtain ⟨i, _, rfl⟩ := hl
    rw [List.mem_map] at hx
    obtain ⟨y, hy, rfl⟩ := hx
    refine mul_pos (h2 y hy) ?_
    unfold layerFactor
    split
    · exact hwp
    · exact zero_lt_one
  · intro p hp
    rw [hcp, List.mem_flatten] at hp
    obtain ⟨l, hl, hp⟩ := hp
    rw [List.mem_map] at hl
    obtain ⟨i, _, rfl⟩ := hl
    rw [List.mem_map] at hp
    obtain ⟨q, hq, rfl⟩ := hp
    have := rotate_length hf ((power c sn i).1 * layerFactor (1 / w) i) ((power c sn i).2 * layerFactor (1 / w) i) (hc q hq)
    cases hce : center with
    | none => simpa [shift] using this
    | some ctr => simp only [shift, List.length_zipWith, this, hctr ctr hce, min_self]

include hs hw hf hctr hc hcl in
theorem build_layers (l g k : ℕ) (hl : l < 2 * n + 1) (hg : g < (netSize s).prod) (hkD : k < D) :
    weightAt (build s axis center c sn w n cps) (g + (netSize s).prod * l) = weightAt s g * layerFactor w l ∧
    ((build s axis center c sn w n cps).controlPoints.getD (g + (netSize s).prod * l) []).getD k 0 =
      (rotate axis ((power c sn l).1 * layerFactor (1 / w) l) ((power c sn l).2 * layerFactor (1 / w) l) (cps.getD g [])).getD k 0 + centerAt center k := by
  have hcp := build_cps (s := s) hf (center := center) hc c sn w n
  have hP : cps.length = (netSize s).prod := by rw [hcl, hs.net]
  have hg' : g < cps.length := by omega
  constructor
  · obtain ⟨h1, h2⟩ := hs.weights ws hw
    have hwl : ws.length = (netSize s).prod := by rw [h1, hs.net]
    unfold weightAt
    have : (build s axis center c sn w n cps).weights = some (spanWeights w ws n ws) := by simp [build, hw]
    rw [this, hw]
    simp only
    rw [weights_layers, List.getD_eq_getElem?_getD, ← hwl, flatten_entry (2 * n + 1) ws (fun l => (· * layerFactor w l)) l g hl (by omega),
      List.getD_eq_getElem _ _ (by omega)]
    rfl
  · rw [hcp, List.getD_eq_getElem?_getD (l := List.flatten _), ← hP, flatten_entry (2 * n + 1) cps (fun l p => shift center (rotate axis ((power c sn l).1 * layerFactor (1 / w) l)
      ((power c sn l).2 * layerFactor (1 / w) l) p)) l g hl hg', List.getD_eq_getElem cps _ hg']
    simp only [Option.getD_some]
    have hlen := rotate_length hf ((power c sn l).1 * layerFactor (1 / w) l) ((power c sn l).2 * layerFactor (1 / w) l) (hc cps[g] (List.getElem_mem _))
    cases hce : center with
    | none => simp [centerAt, shift]
    | some ctr =>
      simp only [centerAt, shift]
      rw [List.getD_eq_getElem _ _ (by rw [List.length_zipWith, hlen, hctr ctr hce]; omega), List.getElem_zipWith,
        List.getD_eq_getElem _ _ (by omega), List.getD_eq_getElem _ _ (by rw [hctr ctr hce]; omega)]

include hs hw hf hctr hc hcl hwp hn hk in
/-- points of the built spline -/
theorem build_point {u : List K} (hu : InDomain s u) {v : K} (h0 : 0 ≤ v) (h1 : v ≤ n) :
    ∃ i < n, (i : K) ≤ v ∧ v ≤ i + 1 ∧ ∀ k < D, point (build s axis center c sn w n cps) (u ++ [v]) k = centerAt center k + (rotate axis
      (((1 - (v - i)) ^ 2 * (power c sn (2 * i)).1 + 2 * (v - i) * (1 - (v - i)) * (power c sn (2 * i + 1)).1 + (v - i) ^ 2 * (power c sn (2 * i + 2)).1) /
        ((1 - (v - i)) ^ 2 + 2 * (v - i) * (1 - (v - i)) * w + (v - i) ^ 2))
      (((1 - (v - i)) ^ 2 * (power c sn (2 * i)).2 + 2 * (v - i) * (1 - (v - i)) * (power c sn (2 * i + 1)).2 + (v - i) ^ 2 * (power c sn (2 * i + 2)).2) /
        ((1 - (v - i)) ^ 2 + 2 * (v - i) * (1 - (v - i)) * w + (v - i) ^ 2))
      ((List.range D).map fun j => value s (fun g => (cps.getD g []).getD j 0) u)).getD k 0 := by
  have hd := build_directions (axis := axis) hs (center := center) (cps := cps) c sn w n
  have hval := (build_valid hs hw hf hctr hc hcl c sn w hwp n hn hk).1
  have hlay := build_layers hs hw hf hctr hc hcl c sn w n
  set s' := build s axis center c sn w n cps with hs'
  have hu' : InDomain s' (u ++ [v]) := inDomain_append s s' _ hd hu
    ⟨by rw [spanDirection_lower _ n hn]; exact h0, by rw [spanDirection_upper _ n hn hk]; exact h1⟩
  obtain ⟨i, hi, hiv, hvi, hsum⟩ := span_basis s.knotVectors.isSome n hn hk h0 h1
  refine ⟨i, hi, hiv, hvi, fun k hkD => ?_⟩
  set τ := v - i with hτ
  have hτ0 : 0 ≤ τ := by rw [hτ]; linarith
  have hτ1 : τ ≤ 1 := by rw [hτ]; linarith
  have hden : 0 < (1 - τ) ^ 2 + 2 * τ * (1 - τ) * w + τ ^ 2 := by
    have a1 : 0 ≤ 2 * τ * (1 - τ) * w := mul_nonneg (mul_nonneg (by linarith) (by linarith)) hwp.le
    rcases eq_or_lt_of_le hτ0 with h | h
    · rw [← h]; norm_num
    · have := pow_pos h 2
      have := sq_nonneg (1 - τ)
      linarith
  set A := fun l => (power c sn l).1 * layerFactor (1 / w) l with hA
  set B := fun l => (power c sn l).2 * layerFactor (1 / w) l with hB
  set r := (List.range D).map fun j => value s (fun g => (cps.getD g []).getD j 0) u with hr
  have hPlen : ∀ g < (netSize s).prod, (cps.getD g []).length = D := by
    intro g hg
    rw [List.getD_eq_getElem _ _ (by rw [hcl, hs.net]; exact hg)]
    exact hc _ (List.getElem_mem _)
  have hvalr : ∀ l, num s (fun g => (rotate axis (A l) (B l) (cps.getD g [])).getD k 0 + centerAt center k) u =
      ((rotate axis (A l) (B l) r).getD k 0 + centerAt center k) * num s (fun _ => 1) u := by
    intro l
    have := value_rotate hs hu hf (A l) (B l) (centerAt center k) (fun g => cps.getD g []) hPlen k hkD
    rw [value_eq hs hu, div_eq_iff (den_pos hs hu).ne'] at this
    exact this
  unfold point
  rw [value_eq hval hu', num_append s s' _ hd hu, num_append s s' _ hd hu, spanDirection_size _ n hn hk]
  have hn1 : ∀ l ∈ range (2 * n + 1), (spanDirection (K := K) s.knotVectors.isSome n).basis v l *
      ∑ g ∈ range (netSize s).prod, basisProduct (basisValues s u) (digits (netSize s) g) * (weightAt s' (g + (netSize s).prod * l) *
        (s'.controlPoints.getD (g + (netSize s).prod * l) []).getD k 0) =
      (spanDirection (K := K) s.knotVectors.isSome n).basis v l *
        (layerFactor w l * (((rotate axis (A l) (B l) r).getD k 0 + centerAt center k) * num s (fun _ => 1) u)) := by
    intro l hl
    rw [← hvalr l]
    congr 1
    unfold num
    rw [mul_sum]
    apply sum_congr rfl
    intro g hg
    obtain ⟨e1, e2⟩ := hlay l g k (mem_range.1 hl) (mem_range.1 hg) hkD
    rw [e1, e2]
    ring
  have hn2 : ∀ l ∈ range (2 * n + 1), (spanDirection (K := K) s.knotVectors.isSome n).basis v l *
      ∑ g ∈ range (netSize s).prod, basisProduct (basisValues s u) (digits (netSize s) g) * (weightAt s' (g + (netSize s).prod * l) * 1) =
      (spanDirection (K := K) s.knotVectors.isSome n).basis v l * (layerFactor w l * num s (fun _ => 1) u) := by
    intro l hl
    congr 1
    unfold num
    rw [mul_sum]
    apply sum_congr rfl
    intro g hg
    rw [(hlay l g k (mem_range.1 hl) (mem_range.1 hg) hkD).1]
    ring
  rw [sum_congr rfl hn1, sum_congr rfl hn2, hsum, hsum]
  have hD := (den_pos hs hu).ne'
  have lf0 : ∀ x : K, layerFactor x (2 * i) = 1 := fun x => by rw [layerFactor, if_neg (by omega)]
  have lf1 : ∀ x : K, layerFactor x (2 * i + 1) = x := fun x => by rw [layerFactor, if_pos (by omega)]
  have lf2 : ∀ x : K, layerFactor x (2 * i + 2) = 1 := fun x => by rw [layerFactor, if_neg (by omega)]
  have hrl : r.length = D := by simp [hr]
  have havg := rotate_average hf hrl ((1 - τ) ^ 2 / ((1 - τ) ^ 2 + 2 * τ * (1 - τ) * w + τ ^ 2))
    (2 * τ * (1 - τ) * w / ((1 - τ) ^ 2 + 2 * τ * (1 - τ) * w + τ ^ 2)) (τ ^ 2 / ((1 - τ) ^ 2 + 2 * τ * (1 - τ) * w + τ ^ 2))
    (A (2 * i)) (A (2 * i + 1)) (A (2 * i + 2)) (B (2 * i)) (B (2 * i + 1)) (B (2 * i + 2))
    (by rw [← add_div, ← add_div, div_self hden.ne']) k hkD
  have eA : (1 - τ) ^ 2 / ((1 - τ) ^ 2 + 2 * τ * (1 - τ) * w + τ ^ 2) * A (2 * i) +
      2 * τ * (1 - τ) * w / ((1 - τ) ^ 2 + 2 * τ * (1 - τ) * w + τ ^ 2) * A (2 * i + 1) +
      τ ^ 2 / ((1 - τ) ^ 2 + 2 * τ * (1 - τ) * w + τ ^ 2) * A (2 * i + 2) =
      ((1 - τ) ^ 2 * (power c sn (2 * i)).1 + 2 * τ * (1 - τ) * (power c sn (2 * i + 1)).1 + τ ^ 2 * (power c sn (2 * i + 2)).1) /
        ((1 - τ) ^ 2 + 2 * τ * (1 - τ) * w + τ ^ 2) := by
    simp only [hA, lf0, lf1, lf2]
    have := hwp.ne'
    field_simp
  have eB : (1 - τ) ^ 2 / ((1 - τ) ^ 2 + 2 * τ * (1 - τ) * w + τ ^ 2) * B (2 * i) +
      2 * τ * (1 - τ) * w / ((1 - τ) ^ 2 + 2 * τ * (1 - τ) * w + τ ^ 2) * B (2 * i + 1) +
      τ ^ 2 / ((1 - τ) ^ 2 + 2 * τ * (1 - τ) * w + τ ^ 2) * B (2 * i + 2) =
      ((1 - τ) ^ 2 * (power c sn (2 * i)).2 + 2 * τ * (1 - τ) * (power c sn (2 * i + 1)).2 + τ ^ 2 * (power c sn (2 * i + 2)).2) /
        ((1 - τ) ^ 2 + 2 * τ * (1 - τ) * w + τ ^ 2) := by
    simp only [hB, lf0, lf1, lf2]
    have := hwp.ne'
    field_simp
  rw [eA, eB] at havg
  rw [← havg, lf0, lf1, lf2]
  generalize (rotate axis (A (2 * i)) (B (2 * i)) r).getD k 0 = x0
  generalize (rotate axis (A (2 * i + 1)) (B (2 * i + 1)) r).getD k 0 = x1
  generalize (rotate axis (A (2 * i + 2)) (B (2 * i + 2)) r).getD k 0 = x2
  have hd' := hden.ne'
  have hrw : (1 - τ) ^ 2 * (1 * num s (fun _ => 1) u) + 2 * τ * (1 - τ) * (w * num s (fun _ => 1) u) + τ ^ 2 * (1 * num s (fun _ => 1) u) =
      ((1 - τ) ^ 2 + 2 * τ * (1 - τ) * w + τ ^ 2) * num s (fun _ => 1) u := by ring
  rw [hrw, div_eq_iff (mul_ne_zero hd' hD)]
  have hq : (1 - τ) ^ 2 / ((1 - τ) ^ 2 + 2 * τ * (1 - τ) * w + τ ^ 2) * x0 + 2 * τ * (1 - τ) * w / ((1 - τ) ^ 2 + 2 * τ * (1 - τ) * w + τ ^ 2) * x1 +
      τ ^ 2 / ((1 - τ) ^ 2 + 2 * τ * (1 - τ) * w + τ ^ 2) * x2 =
      ((1 - τ) ^ 2 * x0 + 2 * τ * (1 - τ) * w * x1 + τ ^ 2 * x2) / ((1 - τ) ^ 2 + 2 * τ * (1 - τ) * w + τ ^ 2) := by ring
  rw [hq]
  have key := div_mul_cancel₀ ((1 - τ) ^ 2 * x0 + 2 * τ * (1 - τ) * w * x1 + τ ^ 2 * x2) hd'
  generalize ((1 - τ) ^ 2 * x0 + 2 * τ * (1 - τ) * w * x1 + τ ^ 2 * x2) / ((1 - τ) ^ 2 + 2 * τ * (1 - τ) * w + τ ^ 2) = y at key ⊢
  linear_combination (-num s (fun _ => 1) u) * key

end

end

end Splinepy.Revolve
