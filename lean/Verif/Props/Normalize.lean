import Verif.Model.Ffd
import Verif.Lemma.Spline
import Verif.Props.Create

/-!
C70: normalising the knot vectors keeps the geometry.
-/
set_option linter.unusedSectionVars false
namespace Splinepy.Ffd
open Splinepy.Index (Spline)
open Splinepy.Spec Finset

variable {K : Type} [Field K] [LinearOrder K] [IsStrictOrderedRing K]

/-- the parameter of the unit interval that corresponds to a knot or parameter `x` of the knot vector -/
def Spec.toUnit (kv : List K) (x : K) : K := (x - kv.headD 0) / (kv.getLastD 0 - kv.headD 0)

theorem basisC_affine (t : ℕ → K) (a c : K) (hc : 0 < c) (n d j : ℕ) (x : K) :
    basisC (fun i => (t i - a) / c) n d j ((x - a) / c) = basisC t n d j x := by
  have hc' := hc.ne'
  induction d generalizing j with
  | zero =>
    have h1 : ∀ i, (x - a) / c = (t i - a) / c ↔ x = t i := by intro i; rw [div_left_inj' hc']; exact sub_left_inj
    have h2 : ∀ i, (t i - a) / c ≤ (x - a) / c ↔ t i ≤ x := by intro i; rw [div_le_div_iff_of_pos_right hc]; exact sub_le_sub_iff_right _
    have h3 : ∀ i, (x - a) / c < (t i - a) / c ↔ x < t i := by intro i; rw [div_lt_div_iff_of_pos_right hc]; exact sub_lt_sub_iff_right _
    have h4 : ∀ i, (t i - a) / c < (x - a) / c ↔ t i < x := by intro i; rw [div_lt_div_iff_of_pos_right hc]; exact sub_lt_sub_iff_right _
    simp only [basisC, h1, h2, h3, h4, ne_eq]
  | succ d ih =>
    simp only [basisC, ih]
    have e : ∀ p q r s : K, ((p - a) / c - (q - a) / c) / ((r - a) / c - (s - a) / c) = (p - q) / (r - s) := by
      intro p q r s
      rw [← sub_div, ← sub_div, div_div_div_cancel_right₀ hc']
      congr 1 <;> ring
    rw [e, e]

theorem scale_knotSeq (kv : List K) (h : kv ≠ []) (j : ℕ) : knotSeq (scaleKnotVector kv) j = Spec.toUnit kv (knotSeq kv j) := by
  unfold knotSeq scaleKnotVector Spec.toUnit
  have hl : (kv.map fun k => (k - kv.headD 0) / (kv.getLastD 0 - kv.headD 0)).getLastD 0 = (kv.getLastD 0 - kv.headD 0) / (kv.getLastD 0 - kv.headD 0) := by
    rw [List.getLastD_eq_getLast?, List.getLast?_map]
    rw [List.getLastD_eq_getLast? (l := kv)]
    obtain ⟨x, hx⟩ : ∃ x, kv.getLast? = some x := by
      cases hk : kv.getLast? with
      | none => exact absurd (List.getLast?_eq_none_iff.1 hk) h
      | some x => exact ⟨x, rfl⟩
    rw [hx]
    simp
  rw [hl]
  by_cases hj : j < kv.length
  · rw [List.getD_eq_getElem _ _ (by simpa using hj), List.getD_eq_getElem _ _ hj, List.getElem_map]
  · rw [List.getD_eq_default _ _ (by simpa using hj), List.getD_eq_default _ _ (by simpa using hj)]

/-- direction with the scaled knots -/
def scaleDirection (d : Direction K) : Direction K := ⟨d.deg, d.knots.map scaleKnotVector⟩

/-- the parameter that corresponds to `x` -/
def Spec.unitParameter (d : Direction K) (x : K) : K :=
  match d.knots with
  | none => x
  | some kv => Spec.toUnit kv x

theorem normalize_directions (s : Spline K (List K)) : directions (normalizeKnots s) = (directions s).map scaleDirection := by
  unfold directions normalizeKnots
  cases s.knotVectors with
  | none => simp [scaleDirection]
  | some kvs =>
    simp only [Option.map_some]
    rw [List.zipWith_map_right, List.map_zipWith]
    rfl

theorem ends_lt {d : Direction K} (hv : d.Valid) {kv : List K} (hk : d.knots = some kv) : kv ≠ [] ∧ kv.headD 0 < kv.getLastD 0 ∧
    ∀ j, kv.headD 0 ≤ knotSeq kv j ∧ knotSeq kv j ≤ kv.getLastD 0 := by
  obtain ⟨h1, h2, h3⟩ := hv kv hk
  have hne : kv ≠ [] := by intro h; rw [h] at h2; simp at h2
  have hmono := KnotInsertion.knotSeq_monotone h1
  have hhead : kv.headD 0 = knotSeq kv 0 := by
    cases kv with
    | nil => exact absurd rfl hne
    | cons a l => simp [knotSeq]
  have hlast : kv.getLastD 0 = knotSeq kv kv.length := by
    unfold knotSeq
    rw [List.getD_eq_default _ _ le_rfl]
  have hb : ∀ j, kv.headD 0 ≤ knotSeq kv j ∧ knotSeq kv j ≤ kv.getLastD 0 := by
    intro j
    rw [hhead]
    refine ⟨hmono (Nat.zero_le _), ?_⟩
    by_cases hj : j ≤ kv.length
    · rw [hlast]; exact hmono hj
    · unfold knotSeq
      rw [List.getD_eq_default _ _ (by omega)]
  refine ⟨hne, ?_, hb⟩
  simp only [Direction.lower, Direction.upper, hk] at h3
  exact lt_of_le_of_lt (hb _).1 (lt_of_lt_of_le h3 (hb _).2)

theorem toUnit_le {kv : List K} (h : kv.headD 0 < kv.getLastD 0) (x y : K) : Spec.toUnit kv x ≤ Spec.toUnit kv y ↔ x ≤ y := by
  unfold Spec.toUnit
  rw [div_le_div_iff_of_pos_right (sub_pos.2 h)]
  exact sub_le_sub_iff_right _

theorem toUnit_lt {kv : List K} (h : kv.headD 0 < kv.getLastD 0) (x y : K) : Spec.toUnit kv x < Spec.toUnit kv y ↔ x < y := by
  rw [lt_iff_lt_of_le_iff_le (toUnit_le h y x)]

theorem scaleDirection_spec {d : Direction K} (hv : d.Valid) : (scaleDirection d).size = d.size ∧ (scaleDirection d).Valid ∧
    (∀ x, d.Contains x ↔ (scaleDirection d).Contains (Spec.unitParameter d x)) ∧ ∀ x j, (scaleDirection d).basis (Spec.unitParameter d x) j = d.basis x j := by
  obtain ⟨p, knots⟩ := d
  cases knots with
  | none =>
    refine ⟨rfl, ?_, fun x => Iff.rfl, fun x j => rfl⟩
    intro kv h
    cases h
  | some kv =>
    obtain ⟨hne, hlt, hb⟩ := ends_lt hv rfl
    obtain ⟨h1, h2, h3⟩ := hv kv rfl
    have hlen : (scaleKnotVector kv).length = kv.length := by simp [scaleKnotVector]
    have hlo : (scaleDirection ⟨p, some kv⟩).lower = Spec.toUnit kv (Direction.lower ⟨p, some kv⟩) := by
      simp only [Direction.lower, scaleDirection, Option.map_some]
      exact scale_knotSeq kv hne _
    have hup : (scaleDirection ⟨p, some kv⟩).upper = Spec.toUnit kv (Direction.upper ⟨p, some kv⟩) := by
      simp only [Direction.upper, scaleDirection, Option.map_some, hlen]
      exact scale_knotSeq kv hne _
    refine ⟨by simp [scaleDirection, Direction.size, hlen], ?_, ?_, ?_⟩
    · intro kv' hk'
      simp only [scaleDirection, Option.map_some, Option.some.injEq] at hk'
      subst hk'
      refine ⟨?_, by rw [hlen]; exact h2, ?_⟩
      · unfold scaleKnotVector
        rw [List.pairwise_map]
        exact h1.imp (fun {a b} hab => (toUnit_le hlt a b).2 hab)
      · rw [hlo, hup, toUnit_lt hlt]
        exact h3
    · intro x
      unfold Direction.Contains
      rw [hlo, hup]
      simp only [Spec.unitParameter]
      rw [toUnit_le hlt, toUnit_le hlt]
    · intro x j
      simp only [Direction.basis, scaleDirection, Option.map_some, Spec.unitParameter, hlen]
      have : knotSeq (scaleKnotVector kv) = fun i => (knotSeq kv i - kv.headD 0) / (kv.getLastD 0 - kv.headD 0) := by
        funext i; exact scale_knotSeq kv hne i
      rw [this]
      exact basisC_affine _ _ _ (sub_pos.2 hlt) _ _ _ _

/-- the parameter of the normalised spline that corresponds to `u` -/
def Spec.unitParameters (s : Spline K (List K)) (u : List K) : List K := List.zipWith Spec.unitParameter (directions s) u

theorem forall2_zipWith {ds : List (Direction K)} (hv : ∀ d ∈ ds, d.Valid) {u : List K} : ds.length = u.length →
    (List.Forall₂ Direction.Contains (ds.map scaleDirection) (List.zipWith Spec.unitParameter ds u) ↔ List.Forall₂ Direction.Contains ds u) := by
  induction ds generalizing u with
  | nil => intro h; cases u <;> simp at h ⊢
  | cons d ds ih =>
    intro h
    cases u with
    | nil => simp at h
    | cons x u =>
      simp only [List.map_cons, List.zipWith_cons_cons, List.forall₂_cons]
      rw [ih (fun e he => hv e (List.mem_cons_of_mem _ he)) (by simpa using h), ((scaleDirection_spec (hv d (by simp))).2.2.1 x)]

/-- C70: for every valid spline, the spline with normalised knot vectors is valid, has the same control points and weights, knots from zero to one, and
its point at the linearly scaled parameter is the point of the original one; its domain is the scaled domain. -/
theorem normalize_evaluates {s : Spline K (List K)} (hs : ValidSpline s) : ValidSpline (normalizeKnots s) ∧
    (normalizeKnots s).controlPoints = s.controlPoints ∧ (normalizeKnots s).weights = s.weights ∧ (normalizeKnots s).degrees = s.degrees ∧
    (∀ kvs, (normalizeKnots s).knotVectors = some kvs → ∀ kv ∈ kvs, kv.headD 0 = 0 ∧ (kv.length ≠ 0 → kv.getLastD 0 = 1)) ∧
    ∀ u, u.length = (directions s).length → (InDomain (normalizeKnots s) (Spec.unitParameters s u) ↔ InDomain s u) ∧
      ∀ k, point (normalizeKnots s) (Spec.unitParameters s u) k = point s u k := by
  have hd := normalize_directions s
  have hnet : netSize (normalizeKnots s) = netSize s := by
    unfold netSize
    rw [hd, List.map_map]
    exact List.map_congr_left (fun d hd => (scaleDirection_spec (hs.dirs d hd)).1)
  refine ⟨⟨?_, ?_, ?_, hs.weights⟩, rfl, rfl, rfl, ?_, fun u hu => ⟨?_, fun k => ?_⟩⟩
  · intro kvs h
    simp only [normalizeKnots, Option.map_eq_some_iff] at h
    obtain ⟨kvs', h1, rfl⟩ := h
    rw [List.length_map]
    exact hs.knots kvs' h1
  · rw [hd]
    intro d h
    obtain ⟨e, he, rfl⟩ := List.mem_map.1 h
    exact (scaleDirection_spec (hs.dirs e he)).2.1
  · rw [hnet]; exact hs.net
  · intro kvs h kv hkv
    simp only [normalizeKnots, Option.map_eq_some_iff] at h
    obtain ⟨kvs', h1, rfl⟩ := h
    obtain ⟨kv', hkv', rfl⟩ := List.mem_map.1 hkv
    obtain ⟨i, hi, rfl⟩ := List.mem_iff_getElem.1 hkv'
    have hi' : i < s.degrees.length := by rw [← hs.knots _ h1]; exact hi
    have hmem : (⟨s.degrees[i], some kvs'[i]⟩ : Direction K) ∈ directions s := by
      unfold directions
      rw [h1]
      exact List.mem_iff_getElem.2 ⟨i, by simp; omega, by simp⟩
    obtain ⟨hne, hlt, -⟩ := ends_lt (hs.dirs _ hmem) rfl
    generalize kvs'[i] = kv at hne hlt
    constructor
    · unfold scaleKnotVector
      cases kv with
      | nil => rfl
      | cons a l => simp
    · intro _
      have := scale_knotSeq kv hne kv.length
      unfold knotSeq at this
      rw [List.getD_eq_default _ _ (by simp [scaleKnotVector]), List.getD_eq_default _ _ le_rfl] at this
      rw [this]
      exact div_self (sub_pos.2 hlt).ne'
  · unfold InDomain Spec.unitParameters
    rw [hd]
    exact forall2_zipWith hs.dirs hu.symm
  · have hb : basisValues (normalizeKnots s) (Spec.unitParameters s u) = basisValues s u := by
      unfold basisValues Spec.unitParameters
      rw [hd]
      have hv := hs.dirs
      generalize directions s = ds at hv hu
      induction ds generalizing u with
      | nil => simp
      | cons d ds ih =>
        cases u with
        | nil => simp at hu
        | cons x u =>
          simp only [List.map_cons, List.zipWith_cons_cons]
          rw [ih u (fun e he => hv e (List.mem_cons_of_mem _ he)) (by simpa using hu)]
          congr 1
          funext j
          exact (scaleDirection_spec (hv d (by simp))).2.2.2 x j
    unfold point value
    rw [hnet, hb]
    rfl

/-- a spline with interior and repeated knots -/
example : ValidSpline (⟨[2], some [[0, 0, 0, 1, 3, 3, 4, 4, 4]], none, [[0], [1], [2], [0], [1], [2]]⟩ : Spline ℚ (List ℚ)) ∧
    normalizeKnots (⟨[2], some [[0, 0, 0, 1, 3, 3, 4, 4, 4]], none, [[0], [1], [2], [0], [1], [2]]⟩ : Spline ℚ (List ℚ)) =
      ⟨[2], some [[0, 0, 0, 1/4, 3/4, 3/4, 1, 1, 1]], none, [[0], [1], [2], [0], [1], [2]]⟩ := by
  refine ⟨⟨?_, ?_, ?_, ?_⟩, ?_⟩
  · intro kvs h; cases h; rfl
  · intro d hd
    simp only [directions, List.zipWith_cons_cons, List.zipWith_nil_right, List.mem_singleton] at hd
    subst hd
    intro kv h
    cases h
    exact ⟨by decide, by decide, by decide +kernel⟩
  · rfl
  · intro ws h; cases h
  · norm_num [normalizeKnots, scaleKnotVector]

end Splinepy.Ffd
