import Verif.Props.Create
import Verif.Lemma.Bernstein
import Mathlib.Tactic.FieldSimp
import Mathlib.Tactic.LinearCombination

/-!
C66: `line` interpolates its points. C49: the parametric view is the identity map.
-/
set_option linter.unusedSectionVars false
namespace Splinepy.Create
open Splinepy.Index (Spline)
open Splinepy.Spec Splinepy.Blossom Finset

variable {K : Type} [Field K] [LinearOrder K] [IsStrictOrderedRing K]

/-- `np.linspace(0, 1, n)` -/
def Spec.unitGrid (n : ℕ) : List K := (List.range n).map fun (i : ℕ) => (i : K) / ((n : K) - 1)

theorem linspace_last {n : ℕ} (hn : 2 ≤ n) : (((n - 1 : ℕ) : K)) / ((n : K) - 1) = 1 := by
  have h1 : (((n - 1 : ℕ) : K)) = (n : K) - 1 := by rw [Nat.cast_sub (by omega)]; simp
  have h2 : (2 : K) ≤ n := by exact_mod_cast hn
  rw [h1, div_self (by intro h; linarith)]

theorem line_knots {n : ℕ} (_hn : 2 ≤ n) (j : ℕ) :
    knotSeq (List.replicate 1 (0 : K) ++ Spec.unitGrid n ++ List.replicate 1 1) j = if j ≤ n then ((j - 1 : ℕ) : K) / ((n : K) - 1) else 1 := by
  have hl : (List.replicate 1 (0 : K) ++ Spec.unitGrid n ++ List.replicate 1 1).getLastD 0 = 1 := by
    rw [List.getLastD_eq_getLast?, List.getLast?_append]; simp
  unfold knotSeq
  rw [hl, List.getD_eq_getElem?_getD, List.append_assoc]
  rcases j with _ | j
  · simp
  · rw [List.getElem?_append_right (by simp)]
    rcases Nat.lt_or_ge j n with h | h
    · rw [if_pos (by omega), List.getElem?_append_left (by simp [Spec.unitGrid]; exact h)]
      simp [Spec.unitGrid, h]
    · rw [if_neg (by omega), List.getElem?_append_right (by simp [Spec.unitGrid]; exact h)]
      rcases Nat.eq_or_lt_of_le h with h' | h'
      · simp [Spec.unitGrid, ← h']
      · rw [List.getElem?_eq_none (by simp [Spec.unitGrid]; omega)]
        rfl

theorem line_sorted {n : ℕ} (hn : 2 ≤ n) : (List.replicate 1 (0 : K) ++ Spec.unitGrid n ++ List.replicate 1 1).Pairwise (· ≤ ·) := by
  have hn2 : (2 : K) ≤ n := by exact_mod_cast hn
  have hpos : (0 : K) < (n : K) - 1 := by linarith
  have hmem : ∀ x ∈ Spec.unitGrid (K := K) n, 0 ≤ x ∧ x ≤ 1 := by
    intro x hx
    simp only [Spec.unitGrid, List.mem_map, List.mem_range] at hx
    obtain ⟨i, hi, rfl⟩ := hx
    refine ⟨div_nonneg (Nat.cast_nonneg _) hpos.le, ?_⟩
    rw [div_le_one hpos]
    have : (i : K) + 1 ≤ n := by exact_mod_cast hi
    linarith
  rw [List.pairwise_append, List.pairwise_append]
  refine ⟨⟨by simp, ?_, ?_⟩, by simp, ?_⟩
  · rw [Spec.unitGrid, List.pairwise_map]
    apply List.pairwise_lt_range.imp
    intro a b hab
    have : (a : K) ≤ b := by exact_mod_cast hab.le
    exact div_le_div_of_nonneg_right this hpos.le
  · intro a ha b hb
    rw [List.eq_of_mem_replicate ha]
    exact (hmem b hb).1
  · intro a ha b hb
    rw [List.eq_of_mem_replicate hb]
    rcases List.mem_append.1 ha with h | h
    · rw [List.eq_of_mem_replicate h]; exact zero_le_one
    · exact (hmem a h).2

theorem line_directions (points : List (List K)) : directions (line Spec.unitGrid points) =
    [⟨1, some (List.replicate 1 0 ++ Spec.unitGrid points.length ++ List.replicate 1 1)⟩] := by
  simp [directions, line]

theorem line_valid (points : List (List K)) (hn : 2 ≤ points.length) : ValidSpline (line Spec.unitGrid points) := by
  refine ⟨?_, ?_, ?_, ?_⟩
  · intro kvs h
    simp only [line, Option.some.injEq] at h
    subst h
    rfl
  · rw [line_directions]
    intro d hd kv hkv
    rw [List.mem_singleton] at hd
    subst hd
    simp only [Option.some.injEq] at hkv
    subst hkv
    refine ⟨line_sorted hn, by simp [Spec.unitGrid]; omega, ?_⟩
    simp only [Direction.lower, Direction.upper]
    rw [line_knots hn, line_knots hn]
    have : (List.replicate 1 (0 : K) ++ Spec.unitGrid points.length ++ List.replicate 1 1).length - 1 - 1 = points.length := by
      simp [Spec.unitGrid]
    rw [this, if_pos (by omega), if_pos le_rfl, linspace_last hn]
    simp
  · rw [netSize, line_directions]
    simp [Direction.size, line, Spec.unitGrid]
  · intro ws h
    simp [line] at h

theorem value_curve {P : Type} {s : Spline K P} {d : Direction K} (hd : directions s = [d]) (hw : s.weights = none) (c : ℕ → K) (x : K) :
    value s c [x] = ∑ j ∈ range d.size, d.basis x j * c j := by
  unfold value
  rw [hw]
  simp only
  rw [tensorEval_eq_sum]
  simp only [netSize, basisValues, hd, List.map_cons, List.map_nil, List.prod_cons, List.prod_nil, mul_one, List.zipWith_cons_cons,
    List.zipWith_nil_left]
  apply sum_congr rfl
  intro i hi
  rw [mem_range] at hi
  rw [List.getD_eq_getElem _ _ (by simpa using hi)]
  simp [digits, basisProduct, Nat.mod_eq_of_lt hi]

/-- on one span the line is the linear interpolation -/
theorem line_span (points : List (List K)) (hn : 2 ≤ points.length) {x : K} (h0 : 0 ≤ x) (h1 : x ≤ 1) (k : ℕ) :
    ∃ (i : ℕ) (τ : K), i + 1 < points.length ∧ 0 ≤ τ ∧ τ ≤ 1 ∧ x = ((i : K) + τ) / ((points.length : K) - 1) ∧
      point (line Spec.unitGrid points) [x] k = (1 - τ) * (points.getD i []).getD k 0 + τ * (points.getD (i + 1) []).getD k 0 := by
  set n := points.length with hnn
  have hn2 : (2 : K) ≤ n := by exact_mod_cast hn
  have hpos : (0 : K) < (n : K) - 1 := by linarith
  set kv := List.replicate 1 (0 : K) ++ Spec.unitGrid n ++ List.replicate 1 1 with hkv
  have ht : Monotone (knotSeq kv) := Splinepy.KnotInsertion.knotSeq_monotone (line_sorted hn)
  have t1 : knotSeq kv 1 = 0 := by rw [line_knots hn, if_pos (by omega)]; simp
  have tn : knotSeq kv n = 1 := by rw [line_knots hn, if_pos le_rfl, linspace_last hn]
  obtain ⟨μ, hμ1, hμn, hlt, ha, hb, hbas⟩ := basisC_span ht (p := 1) (n := n) (x := x) (by rw [t1, tn]; exact zero_lt_one)
    (by rw [t1]; exact h0) (by rw [tn]; exact h1)
  have hlen : kv.length - 1 - 1 = n := by simp [hkv, Spec.unitGrid]
  have tm : knotSeq kv μ = ((μ - 1 : ℕ) : K) / ((n : K) - 1) := by rw [line_knots hn, if_pos (by omega)]
  have tm' : knotSeq kv (μ + 1) = ((μ : ℕ) : K) / ((n : K) - 1) := by rw [line_knots hn, if_pos (by omega)]; simp
  have hμ : ((μ : ℕ) : K) = ((μ - 1 : ℕ) : K) + 1 := by
    have : μ = (μ - 1) + 1 := by omega
    exact_mod_cast congrArg (Nat.cast (R := K)) this
  rw [tm] at ha
  rw [tm'] at hb
  rw [div_le_iff₀ hpos] at ha
  rw [le_div_iff₀ hpos] at hb
  refine ⟨μ - 1, x * ((n : K) - 1) - ((μ - 1 : ℕ) : K), by omega, by linarith, by rw [hμ] at hb; linarith, ?_, ?_⟩
  · field_simp; ring
  · unfold point
    rw [value_curve (line_directions points) rfl]
    have hsz : Direction.size (K := K) ⟨1, some kv⟩ = n := by simp [Direction.size, hkv, Spec.unitGrid]
    rw [← hnn, ← hkv, hsz]
    have hcp : (line Spec.unitGrid points).controlPoints = points := rfl
    rw [hcp]
    have hb1 : ∀ j, Direction.basis (K := K) ⟨1, some kv⟩ x j = bl (knotSeq kv) μ (fun _ => x) 1 j := by
      intro j
      simp only [Direction.basis]
      have : kv.length - 1 - 1 = n := hlen
      rw [show kv.length - 1 - 1 = n from hlen, hbas]
    simp only [hb1]
    have hber : ∀ q ≤ 1, bl (knotSeq kv) μ (fun _ => x) 1 (μ - 1 + q) = bernstein 1 q (knotSeq kv μ) (knotSeq kv (μ + 1)) x := by
      intro q hq
      apply bl_bernstein hμ1 _ _ 1 le_rfl q hq
      · intro i h1 h2
        have : i = μ := by omega
        rw [this]
      · intro i h1 h2
        have : i = μ + 1 := by omega
        rw [this]
    have e0 := hber 0 (by omega)
    have e1 := hber 1 (by omega)
    rw [add_zero] at e0
    have hsub : ({μ - 1, μ - 1 + 1} : Finset ℕ) ⊆ range n := by
      intro j hj
      simp only [mem_insert, mem_singleton] at hj
      rw [mem_range]
      omega
    rw [← sum_subset hsub]
    · rw [sum_pair (by omega), e0, e1]
      simp only [bernstein, tm, tm', hμ]
      have hd : (((μ - 1 : ℕ) : K) + 1) / ((n : K) - 1) - ((μ - 1 : ℕ) : K) / ((n : K) - 1) = 1 / ((n : K) - 1) := by
        rw [← sub_div]; congr 1; ring
      rw [hd]
      simp only [Nat.choose_zero_right, Nat.choose_self, Nat.cast_one, pow_zero, pow_one, Nat.sub_zero, Nat.sub_self, mul_one, one_mul]
      field_simp
      ring
    · intro j _ hj
      rw [mem_insert, mem_singleton] at hj
      have : bl (knotSeq kv) μ (fun _ => x) 1 j = 0 := by
        by_contra hne
        have := supp_bl _ μ _ 1 j hne
        omega
      rw [this, zero_mul]

/-- C66: for every list of at least two points, the line is a valid spline of degree one on [0, 1] that goes in equal parameter steps linearly from
point to point; in particular it interpolates point `i` at `i / (n - 1)`. -/
theorem line_evaluates (points : List (List K)) (hn : 2 ≤ points.length) :
    ValidSpline (line Spec.unitGrid points) ∧ (line Spec.unitGrid points).degrees = [1] ∧ ∀ (i : ℕ) (τ : K), i + 1 < points.length → 0 ≤ τ → τ ≤ 1 →
      InDomain (line Spec.unitGrid points) [((i : K) + τ) / ((points.length : K) - 1)] ∧ ∀ k,
        point (line Spec.unitGrid points) [((i : K) + τ) / ((points.length : K) - 1)] k =
          (1 - τ) * (points.getD i []).getD k 0 + τ * (points.getD (i + 1) []).getD k 0 := by
  refine ⟨line_valid points hn, rfl, fun i τ hi h0 h1 => ?_⟩
  have hn2 : (2 : K) ≤ points.length := by exact_mod_cast hn
  have hpos : (0 : K) < (points.length : K) - 1 := by linarith
  have hin : (i : K) + 1 + 1 ≤ points.length := by exact_mod_cast hi
  have hx0 : 0 ≤ ((i : K) + τ) / ((points.length : K) - 1) := div_nonneg (add_nonneg (Nat.cast_nonneg _) h0) hpos.le
  have hx1 : ((i : K) + τ) / ((points.length : K) - 1) ≤ 1 := by rw [div_le_one hpos]; linarith
  constructor
  · unfold InDomain
    rw [line_directions]
    refine .cons ⟨?_, ?_⟩ .nil
    · simp only [Direction.lower]
      rw [line_knots hn, if_pos (by omega)]
      simpa using hx0
    · simp only [Direction.upper]
      have : (List.replicate 1 (0 : K) ++ Spec.unitGrid points.length ++ List.replicate 1 1).length - 1 - 1 = points.length := by
        simp [Spec.unitGrid]
      rw [this, line_knots hn, if_pos le_rfl, linspace_last hn]
      exact hx1
  · intro k
    obtain ⟨i', τ', hi', h0', h1', he, hp⟩ := line_span points hn hx0 hx1 k
    rw [hp]
    have he' : (i : K) + τ = (i' : K) + τ' := by
      rw [div_left_inj' (by intro h; linarith)] at he
      exact he
    rcases Nat.lt_trichotomy i i' with h | h | h
    · have hc : (i : K) + 1 ≤ i' := by exact_mod_cast h
      have a1 : τ = 1 := by linarith
      have a2 : τ' = 0 := by linarith
      have a3 : (i' : K) = ((i + 1 : ℕ) : K) := by push_cast; linarith
      have a4 : i' = i + 1 := by exact_mod_cast a3
      rw [a1, a2, a4]; ring
    · subst h
      have : τ' = τ := by linarith
      rw [this]
    · have hc : (i' : K) + 1 ≤ i := by exact_mod_cast h
      have a1 : τ' = 1 := by linarith
      have a2 : τ = 0 := by linarith
      have a3 : (i : K) = ((i' + 1 : ℕ) : K) := by push_cast; linarith
      have a4 : i = i' + 1 := by exact_mod_cast a3
      rw [a1, a2, a4]; ring

example : 2 ≤ ([[0, 0], [1, 0], [1, 3]] : List (List ℚ)).length := by decide

/-! ### parametric view -/

/-- an operation that keeps every point of a spline -/
def Spec.Keeps (f : Spline K (List K) → Spline K (List K)) : Prop :=
  ∀ s, ValidSpline s → ValidSpline (f s) ∧ ∀ u, InDomain s u → InDomain (f s) u ∧ ∀ k, point (f s) u k = point s u k

theorem keeps_fold {α : Type} (f : Spline K (List K) → α → Spline K (List K)) (l : List α) (h : ∀ a ∈ l, Spec.Keeps (fun s => f s a)) :
    Spec.Keeps (fun s => l.foldl f s) := by
  induction l with
  | nil => exact fun s hs => ⟨hs, fun u hu => ⟨hu, fun k => rfl⟩⟩
  | cons a l ih =>
    intro s hs
    obtain ⟨h1, h2⟩ := h a (by simp) s hs
    obtain ⟨h3, h4⟩ := ih (fun b hb => h b (by simp [hb])) (f s a) h1
    refine ⟨h3, fun u hu => ?_⟩
    obtain ⟨h5, h6⟩ := h2 u hu
    obtain ⟨h7, h8⟩ := h4 u h5
    exact ⟨h7, fun k => (h8 k).trans (h6 k)⟩

theorem Spec.Keeps.comp {f g : Spline K (List K) → Spline K (List K)} (hf : Spec.Keeps f) (hg : Spec.Keeps g) : Spec.Keeps (fun s => g (f s)) := by
  intro s hs
  obtain ⟨h1, h2⟩ := hf s hs
  obtain ⟨h3, h4⟩ := hg (f s) h1
  refine ⟨h3, fun u hu => ?_⟩
  obtain ⟨h5, h6⟩ := h2 u hu
  obtain ⟨h7, h8⟩ := h4 u h5
  exact ⟨h7, fun k => (h8 k).trans (h6 k)⟩

theorem Spec.Keeps.ite {f g : Spline K (List K) → Spline K (List K)} {p : Prop} [Decidable p] (hf : Spec.Keeps f) (hg : Spec.Keeps g) :
    Spec.Keeps (fun s => if p then f s else g s) := by
  split <;> assumption

theorem keeps_id : Spec.Keeps (fun s : Spline K (List K) => s) := fun _ hs => ⟨hs, fun _ hu => ⟨hu, fun _ => rfl⟩⟩

/-- dropping the knot vectors of a spline that has the ones of a Bezier spline -/
theorem drop_knots {s : Spline K (List K)} (hs : ValidSpline s)
    (hk : s.knotVectors = some (s.degrees.map fun p => List.replicate (p + 1) 0 ++ List.replicate (p + 1) 1)) :
    ValidSpline ({ s with knotVectors := none } : Spline K (List K)) ∧ ∀ u, InDomain s u →
      InDomain ({ s with knotVectors := none } : Spline K (List K)) u ∧ ∀ k, point ({ s with knotVectors := none } : Spline K (List K)) u k = point s u k := by
  set b : Spline K (List K) := { s with knotVectors := none } with hb
  have hbs : withKnotVectors b = s := by
    unfold withKnotVectors
    simp only [hb]
    cases s
    simp_all
  have hdb : directions b = s.degrees.map fun p => ⟨p, none⟩ := rfl
  have hds : directions s = s.degrees.map fun p => ⟨p, some (List.replicate (p + 1) 0 ++ List.replicate (p + 1) 1)⟩ := by
    rw [← hbs]; exact withKnotVectors_directions rfl
  have hn : netSize b = netSize s := by
    unfold netSize
    rw [hdb, hds, List.map_map, List.map_map]
    apply List.map_congr_left
    intro p _
    simp [Direction.size]
    omega
  have hbv : ValidSpline b := by
    refine ⟨?_, ?_, ?_, hs.weights⟩
    · intro kvs h; simp [hb] at h
    · rw [hdb]
      intro d hd kv hkv
      rw [List.mem_map] at hd
      obtain ⟨p, _, rfl⟩ := hd
      cases hkv
    · rw [hn]; exact hs.net
  have hdom : ∀ u, InDomain s u → InDomain b u := by
    intro u hu
    unfold InDomain at *
    rw [hds, List.forall₂_map_left_iff] at hu
    rw [hdb, List.forall₂_map_left_iff]
    apply hu.imp
    intro p x hx
    have h1 : Direction.lower (K := K) ⟨p, some (List.replicate (p + 1) 0 ++ List.replicate (p + 1) 1)⟩ = 0 := two_ends_left 0 1 p p le_rfl
    have h2 : Direction.upper (K := K) ⟨p, some (List.replicate (p + 1) 0 ++ List.replicate (p + 1) 1)⟩ = 1 := by
      simp only [Direction.upper]
      exact two_ends_right 0 1 p _ (by simp; omega) (by simp; omega)
    have h3 := hx.1
    have h4 := hx.2
    rw [h1] at h3
    rw [h2] at h4
    exact ⟨h3, h4⟩
  refine ⟨hbv, fun u hu => ⟨hdom u hu, fun k => ?_⟩⟩
  have := ((withKnotVectors_evaluates hbv).2.2 u (hdom u hu)).2 k
  rw [hbs] at this
  exact this.symm

/-- C49: with a degree elevation and a knot insertion that keep every point, the parametric view of a polynomial spline, and without `conform` of every
spline, maps every parameter to itself. `lo` and `up` are the parametric bounds, which are 0 and 1 without knot vectors. -/
theorem parametricView_identity_partial (elevate : List ℕ → Spline K (List K) → Spline K (List K))
    (insert : ℕ → List K → Spline K (List K) → Spline K (List K)) (he : ∀ q, Spec.Keeps (elevate q)) (hi : ∀ d q, Spec.Keeps (insert d q))
    (s : Spline K (List K)) (lo up : List K) (innerKnots : List (List K)) (conform : Bool) (d : ℕ) (hd : 0 < d) (h1 : lo.length = d)
    (h2 : up.length = d) (hlt : ∀ i < d, lo.getD i 0 < up.getD i 0) (hpoly : conform = true → s.weights = none)
    (hbez : s.knotVectors = none → lo = List.replicate d 0 ∧ up = List.replicate d 1) :
    ∃ v, parametricView elevate insert s lo up innerKnots conform = some v ∧ ValidSpline v ∧
      ∀ u : List K, u.length = d → (∀ i < d, lo.getD i 0 ≤ u.getD i 0 ∧ u.getD i 0 ≤ up.getD i 0) → InDomain v u ∧ ∀ k < d, point v u k = u.getD k 0 := by
  obtain ⟨p, hp, hpv, _, hpd, hpk, hpw, hpe⟩ := fromBounds_evaluates lo up lo up d hd h1 h2 h1.ge h2.ge hlt
  have hident : ∀ u : List K, u.length = d → (∀ i < d, lo.getD i 0 ≤ u.getD i 0 ∧ u.getD i 0 ≤ up.getD i 0) → InDomain p u ∧ ∀ k < d, point p u k = u.getD k 0 := by
    intro u hu1 hu2
    obtain ⟨a, b⟩ := hpe u hu1 hu2
    refine ⟨a, fun k hk => ?_⟩
    rw [b k hk]
    have := hlt k hk
    have hne : up.getD k 0 - lo.getD k 0 ≠ 0 := by intro h; linarith
    rw [div_mul_cancel₀ _ hne]
    ring
  -- everything that happens afterwards keeps the points
  suffices hk : ∃ v : Spline K (List K), parametricView elevate insert s lo up innerKnots conform = some v ∧
      ValidSpline v ∧ ∀ u, InDomain p u → InDomain v u ∧ ∀ k, point v u k = point p u k by
    obtain ⟨v, hf, hv, hf2⟩ := hk
    refine ⟨v, hf, hv, fun u hu1 hu2 => ?_⟩
    obtain ⟨a, b⟩ := hident u hu1 hu2
    obtain ⟨c, e⟩ := hf2 u a
    exact ⟨c, fun k hk => (e k).trans (b k hk)⟩
  have hins : Spec.Keeps (fun q : Spline K (List K) => (List.zip (List.range innerKnots.length) innerKnots).foldl
      (fun acc (p : ℕ × List K) => if p.2.length > 0 then insert p.1 p.2 acc else acc) q) := by
    apply keeps_fold
    intro a _
    exact Spec.Keeps.ite (hi _ _) keeps_id
  unfold parametricView
  rw [hp]
  simp only [Option.map_some, Option.some.injEq]
  cases conform with
  | false =>
    simp only [Bool.false_eq_true, if_false]
    cases hsk : s.knotVectors with
    | some kvs =>
      simp only [Option.isSome_some, if_true]
      exact ⟨_, rfl, (hins p hpv).1, (hins p hpv).2⟩
    | none =>
      simp only [Option.isSome_none, Bool.false_eq_true, if_false]
      exact ⟨p, rfl, hpv, fun u hu => ⟨hu, fun k => rfl⟩⟩
  | true =>
    have hw := hpoly rfl
    simp only [hw, Option.isSome_none, Bool.false_eq_true, if_false, if_true]
    cases hsk : s.knotVectors with
    | some kvs =>
      simp only [Option.isSome_some, Option.isNone_some, Bool.false_eq_true, if_false, if_true]
      set query := ((List.zip (List.range s.degrees.length) (List.zipWith (· - ·) s.degrees p.degrees)).map
        fun (p : ℕ × ℕ) => List.replicate p.2 p.1).flatten with hq
      have := (Spec.Keeps.ite (p := query.length > 0) (he query) keeps_id).comp hins
      exact ⟨_, rfl, (this p hpv).1, (this p hpv).2⟩
    | none =>
      simp only [Option.isSome_none, Option.isNone_none, Bool.false_eq_true, if_false, if_true]
      obtain ⟨hlo, hup⟩ := hbez hsk
      have hkn : p.knotVectors = some (p.degrees.map fun p => List.replicate (p + 1) 0 ++ List.replicate (p + 1) 1) := by
        rw [hpk, hpd]
        congr 1
        apply List.ext_getElem
        · simp
        · intro i hi1 hi2
          have hi : i < d := by simpa using hi1
          simp [hlo, hup, hi]
      obtain ⟨hb1, hb2⟩ := drop_knots hpv hkn
      set query := ((List.zip (List.range s.degrees.length) (List.zipWith (· - ·) s.degrees p.degrees)).map
        fun (p : ℕ × ℕ) => List.replicate p.2 p.1).flatten with hq
      obtain ⟨hc1, hc2⟩ := Spec.Keeps.ite (p := query.length > 0) (he query) keeps_id _ hb1
      refine ⟨_, rfl, hc1, ?_⟩
      intro u hu
      obtain ⟨a, b⟩ := hb2 u hu
      obtain ⟨c, e⟩ := hc2 u a
      exact ⟨c, fun k => (e k).trans (b k)⟩

/-- a Bezier surface meets the hypotheses, with operations that do nothing -/
example : ∃ s : Spline ℚ (List ℚ), s.degrees = [2, 1] ∧ (∀ q : List ℕ, Spec.Keeps (K := ℚ) ((fun _ s => s : List ℕ → _ → _) q)) ∧
    (∀ i < 2, ([0, 0] : List ℚ).getD i 0 < ([1, 1] : List ℚ).getD i 0) :=
  ⟨⟨[2, 1], none, none, []⟩, rfl, fun _ => keeps_id, by decide +kernel⟩

/-- C49 (disagreement): with `conform`, the weights of a rational spline are copied over the weights of the linear view without changing its control points
(create.py 517-518), so the view of a rational line with weights 1 and 2 maps the parameter 1/2 to 2/3. -/
theorem parametricView_rational_violates :
    ∃ v : Spline ℚ (List ℚ), parametricView (fun _ s => s) (fun _ _ s => s) ⟨[1], none, some [1, 2], [[0], [1]]⟩ [0] [1] [] true = some v ∧
      point v [1/2] 0 = 2/3 := by
  refine ⟨_, rfl, ?_⟩
  decide +kernel

end Splinepy.Create
