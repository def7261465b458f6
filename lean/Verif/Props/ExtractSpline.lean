import Verif.Model.ExtractSpline
import Verif.Props.Create
import Verif.Lemma.Slice
import Verif.Lemma.LeftLimit

/-!
C55: `extract.spline` returns the part of the spline between two parameters of an axis, or its section at one parameter.
-/
set_option linter.unusedSectionVars false
namespace Splinepy.ExtractSpline
open Splinepy.Spec Splinepy.Slice Finset
open Splinepy.Index (Spline controlMeshResolutions multiIndexGet)

variable {K : Type} [Field K] [LinearOrder K] [IsStrictOrderedRing K]

/-- What `insert_knots` promises: `s'` is `s` with the locations inserted along the axis, no knot more often than degree + 1 times by the insertion, with the
same points. -/
structure Spec.Inserted (s s' : Spline K (List K)) (axis : ℕ) (locs : List K) : Prop where
  valid : ValidSpline s'
  degrees : s'.degrees = s.degrees
  knots : ∀ kvs p kv, s.knotVectors = some kvs → s.degrees[axis]? = some p → kvs[axis]? = some kv → ∃ kv', s'.knotVectors = some (kvs.set axis kv') ∧
    ∀ v, kv'.count v = max (kv.count v) (min (p + 1) (kv.count v + locs.count v))
  rational : s'.weights.isSome = s.weights.isSome
  same : ∀ u, InDomain s u → InDomain s' u ∧ ∀ k, point s' u k = point s u k

/-- Result of `n` insertions of the locations. -/
structure Refined (s q : Spline K (List K)) (axis : ℕ) (locs : List K) (kvs : List (List K)) (p : ℕ) (kv : List K) (n : ℕ) : Prop where
  valid : ValidSpline q
  degrees : q.degrees = s.degrees
  knots : ∃ kv', q.knotVectors = some (kvs.set axis kv') ∧ (∀ v ∈ locs, min (p + 1) (kv.count v + n) ≤ kv'.count v) ∧
    (∀ v, kv.count v ≤ kv'.count v) ∧ (∀ v, kv'.count v ≤ max (kv.count v) (p + 1)) ∧ ∀ v, v ∉ locs → kv'.count v = kv.count v
  rational : q.weights.isSome = s.weights.isSome
  same : ∀ u, InDomain s u → InDomain q u ∧ ∀ k, point q u k = point s u k

theorem insertLoop_refines {insert : Spline K (List K) → ℕ → List K → Option (Spline K (List K))} {F : Spline K (List K) → Prop} {axis : ℕ} {locs : List K}
    (hF : ∀ q, F q → ∃ q', insert q axis locs = some q' ∧ F q' ∧ Spec.Inserted q q' axis locs) (n : ℕ) (s : Spline K (List K)) (hs : ValidSpline s)
    (h0 : F s) (kvs : List (List K)) (p : ℕ) (kv : List K) (h1 : s.knotVectors = some kvs) (h2 : s.degrees[axis]? = some p) (h3 : kvs[axis]? = some kv) :
    ∃ q, insertLoop insert axis locs n s = some q ∧ Refined s q axis locs kvs p kv n := by
  induction n generalizing s kvs kv with
  | zero =>
    refine ⟨s, rfl, hs, rfl, ⟨kv, ?_, fun v _ => by omega, fun v => le_rfl, fun v => le_max_left _ _, fun v _ => rfl⟩, rfl, fun u hu => ⟨hu, fun k => rfl⟩⟩
    obtain ⟨h, e⟩ := List.getElem?_eq_some_iff.1 h3
    rw [h1, ← e, List.set_getElem_self]
  | succ n ih =>
    obtain ⟨q', e, hf, hi⟩ := hF s h0
    obtain ⟨kv', k1, k2⟩ := hi.knots kvs p kv h1 h2 h3
    have hax : axis < kvs.length := (List.getElem?_eq_some_iff.1 h3).1
    obtain ⟨q, e2, r⟩ := ih q' hi.valid hf (kvs.set axis kv') kv' k1 (by rw [hi.degrees, h2]) (by rw [List.getElem?_set_self hax])
    obtain ⟨kv'', a1, a2, a3, a4, a5⟩ := r.knots
    refine ⟨q, by rw [insertLoop, e]; exact e2, r.valid, r.degrees.trans hi.degrees, ⟨kv'', by rw [a1, List.set_set], ?_, ?_, ?_, ?_⟩, r.rational.trans hi.rational,
      fun u hu => ?_⟩
    · intro v hv
      have b1 := a2 v hv
      have b2 := k2 v
      have b3 : 1 ≤ locs.count v := List.one_le_count_iff.2 hv
      omega
    · intro v
      have b1 := a3 v
      have b2 := k2 v
      omega
    · intro v
      have b1 := a4 v
      have b2 := k2 v
      omega
    · intro v hv
      have b1 := a5 v hv
      have b2 := k2 v
      have b3 : locs.count v = 0 := List.count_eq_zero.2 hv
      omega
    · obtain ⟨c1, c2⟩ := hi.same u hu
      obtain ⟨c3, c4⟩ := r.same u c1
      exact ⟨c3, fun k => (c4 k).trans (c2 k)⟩

/-! ### the last occurrence of a knot -/

theorem last_knot {kv : List K} (hs : kv.Pairwise (· ≤ ·)) {p : ℕ} {tol a : K} (htol : 0 < tol) (hsep : ∀ v ∈ kv, v = a ∨ tol ≤ |v - a|)
    (hc : p + 1 ≤ kv.count a) :
    ∃ st, lastWithin tol kv a = some (st + p) ∧ st + p < kv.length ∧ (∀ i, st ≤ i → i ≤ st + p → knotSeq kv i = a) ∧
      (∀ i, st + p < i → i < kv.length → a < knotSeq kv i) ∧ st + p + 1 = (kv.filter (· < a)).length + kv.count a := by
  have hsp := sorted_split hs a
  set L := kv.filter (· < a) with hL
  set R := kv.filter (a < ·) with hR
  have hlen : kv.length = L.length + kv.count a + R.length := by
    conv_lhs => rw [hsp]
    simp [add_assoc]
  have hget : ∀ i, i < kv.length → knotSeq kv i = kv.getD i 0 := by
    intro i hi
    unfold knotSeq
    rw [List.getD_eq_getElem _ _ hi, List.getD_eq_getElem _ _ hi]
  have hmid : ∀ i, L.length ≤ i → i < L.length + kv.count a → kv.getD i 0 = a := by
    intro i h1 h2
    rw [hsp, List.append_assoc, List.getD_append_right _ _ _ _ h1, List.getD_append _ _ _ _ (by simp; omega),
      List.getD_eq_getElem _ _ (by simp; omega)]
    simp
  have hright : ∀ i, L.length + kv.count a ≤ i → i < kv.length → a < kv.getD i 0 := by
    intro i h1 h2
    have hm : kv.getD i 0 ∈ R := by
      rw [hsp, List.getD_append_right _ _ _ _ (by simp; omega), List.getD_eq_getElem _ _ (by simp; omega)]
      exact List.getElem_mem _
    rw [hR, List.mem_filter] at hm
    simpa using hm.2
  refine ⟨L.length + kv.count a - 1 - p, ?_, by omega, ?_, ?_, by omega⟩
  · have : L.length + kv.count a - 1 - p + p = L.length + kv.count a - 1 := by omega
    rw [this]
    unfold lastWithin
    apply getLast_filter_range _ _ _ (by omega)
    · rw [hmid _ (by omega) (by omega)]
      simpa using htol
    · intro i h1 h2
      have h3 := hright i (by omega) h2
      have h4 := hsep (kv.getD i 0) (by rw [List.getD_eq_getElem _ _ h2]; exact List.getElem_mem _)
      rcases h4 with h4 | h4
      · rw [h4] at h3; exact absurd h3 (lt_irrefl _)
      · simpa using h4
  · intro i h1 h2
    rw [hget i (by omega)]
    exact hmid i (by omega) (by omega)
  · intro i h1 h2
    rw [hget i h2]
    exact hright i (by omega) h2

/-! ### slices of the refined spline -/

theorem directions_split {q : Spline K (List K)} {d1 d2 : List ℕ} {p : ℕ} {k1 k2 : List (List K)} {kv : List K} (hd : q.degrees = d1 ++ p :: d2)
    (hk : q.knotVectors = some (k1 ++ kv :: k2)) (h1 : d1.length = k1.length) :
    directions q = List.zipWith (fun d kv => (⟨d, some kv⟩ : Direction K)) d1 k1 ++ ⟨p, some kv⟩ :: List.zipWith (fun d kv => (⟨d, some kv⟩ : Direction K)) d2 k2 := by
  unfold directions
  rw [hk, hd]
  simp only
  rw [List.zipWith_append h1, List.zipWith_cons_cons]

theorem netSize_eq_resolutions {q : Spline K (List K)} : controlMeshResolutions q = netSize q := by
  unfold controlMeshResolutions netSize directions
  cases q.knotVectors with
  | none => simp [Direction.size]
  | some kvs =>
    simp only
    rw [List.map_zipWith, List.zipWith_comm]
    rfl

theorem num_getD {s : Spline K (List K)} (c : ℕ → K) (u : List K) :
    num s c u = ∑ i ∈ range (netSize s).prod, basisProduct (basisValues s u) (digits (netSize s) i) * (weightAt s i * c i) := rfl

theorem knotSeq_slice (kv : List K) (st e i : ℕ) (h : st + i < e) (he : e ≤ kv.length) : knotSeq ((kv.take e).drop st) i = knotSeq kv (st + i) := by
  unfold knotSeq
  rw [List.getD_eq_getElem _ _ (by simp; omega), List.getD_eq_getElem _ _ (by omega)]
  simp

/-- facts about the refined spline: `a` and `b` are knots repeated degree + 1 times, ending at `st + p` and `e + p` -/
structure Window (kv : List K) (p st e : ℕ) (a b : K) : Prop where
  sorted : kv.Pairwise (· ≤ ·)
  size : e + p < kv.length
  lt : a < b
  first : ∀ i, st ≤ i → i ≤ st + p → knotSeq kv i = a
  last : ∀ i, e ≤ i → i ≤ e + p → knotSeq kv i = b

theorem Window.order {kv : List K} {p st e : ℕ} {a b : K} (w : Window kv p st e a b) : st + p < e := by
  by_contra hc
  have := KnotInsertion.knotSeq_monotone w.sorted (show e ≤ st + p by omega)
  rw [w.first _ (by omega) le_rfl, w.last _ le_rfl (by omega)] at this
  exact absurd w.lt (not_lt.2 this)

/-- the direction of the slice -/
def sliceDirection (kv : List K) (p st e : ℕ) : Direction K := ⟨p, some ((kv.take (e + p + 1)).drop st)⟩

theorem Window.slice {kv : List K} {p st e : ℕ} {a b : K} (w : Window kv p st e a b) :
    (sliceDirection kv p st e).size = e - st ∧ (sliceDirection kv p st e).lower = a ∧ (sliceDirection kv p st e).upper = b ∧ (sliceDirection kv p st e).Valid := by
  have ho := w.order
  have hz := w.size
  have hl : ((kv.take (e + p + 1)).drop st).length = e + p + 1 - st := by simp; omega
  have h1 : (sliceDirection kv p st e).size = e - st := by
    simp only [sliceDirection, Direction.size, hl]
    omega
  have h2 : (sliceDirection kv p st e).lower = a := by
    simp only [sliceDirection, Direction.lower]
    rw [knotSeq_slice _ _ _ _ (by omega) (by omega), w.first _ (by omega) le_rfl]
  have h3 : (sliceDirection kv p st e).upper = b := by
    simp only [sliceDirection, Direction.upper, hl]
    rw [knotSeq_slice _ _ _ _ (by omega) (by omega), w.last _ (by omega) (by omega)]
  refine ⟨h1, h2, h3, ?_⟩
  intro kv' hkv
  simp only [sliceDirection, Option.some.injEq] at hkv
  subst hkv
  refine ⟨(w.sorted.sublist (List.take_sublist _ _)).sublist (List.drop_sublist _ _), by rw [hl]; simp only [sliceDirection]; omega, ?_⟩
  rw [h2, h3]
  exact w.lt

/-- basis functions of the slice -/
theorem Window.basis {kv : List K} {p st e : ℕ} {a b : K} (w : Window kv p st e a b) {x : K} (hx0 : a ≤ x) (hx1 : x < b ∨ (x = b ∧ ∀ v ∈ kv, v ≤ b)) :
    (∀ j < e - st, (sliceDirection kv p st e).basis x j = (⟨p, some kv⟩ : Direction K).basis x (st + j)) ∧
      ∀ j < kv.length - p - 1, j < st ∨ st + (e - st) ≤ j → (⟨p, some kv⟩ : Direction K).basis x j = 0 := by
  have ho := w.order
  have hz := w.size
  have hmono := KnotInsertion.knotSeq_monotone w.sorted
  have hl : ((kv.take (e + p + 1)).drop st).length = e + p + 1 - st := by simp; omega
  have he : knotSeq kv e = b := w.last _ le_rfl (by omega)
  have hend : (∀ v ∈ kv, v ≤ b) → knotSeq kv (kv.length - p - 1) = b := by
    intro h
    apply le_antisymm
    · unfold knotSeq
      rw [List.getD_eq_getElem _ _ (by omega)]
      exact h _ (List.getElem_mem _)
    · rw [← he]
      exact hmono (by omega)
  have hn : x = knotSeq ((kv.take (e + p + 1)).drop st) (((kv.take (e + p + 1)).drop st).length - p - 1) ↔ x = knotSeq kv (kv.length - p - 1) := by
    rw [hl, knotSeq_slice _ _ _ _ (by omega) (by omega), w.last _ (by omega) (by omega)]
    rcases hx1 with h | ⟨h, h'⟩
    · have : b ≤ knotSeq kv (kv.length - p - 1) := by rw [← he]; exact hmono (by omega)
      exact ⟨fun h2 => absurd h2 h.ne, fun h2 => absurd h2 (lt_of_lt_of_le h this).ne⟩
    · rw [hend h']
  constructor
  · intro j hj
    simp only [sliceDirection, Direction.basis]
    apply basisC_shift _ _ _ _ hn
    intro i h1 h2
    exact knotSeq_slice _ _ _ _ (by omega) (by omega)
  · intro j hj hj2
    by_contra hne
    simp only [Direction.basis] at hne
    obtain ⟨s1, s2, s3⟩ := basisC_support hmono _ _ _ _ hne
    rcases hj2 with h | h
    · have h1 : knotSeq kv (j + p + 1) ≤ a := by rw [← w.first (st + p) (by omega) le_rfl]; exact hmono (by omega)
      rcases hx1 with hb | ⟨hb, hb'⟩
      · have : x ≠ knotSeq kv (kv.length - p - 1) := by
          have : b ≤ knotSeq kv (kv.length - p - 1) := by rw [← he]; exact hmono (by omega)
          exact (lt_of_lt_of_le hb this).ne
        exact absurd (lt_of_lt_of_le (s3 this) h1) (not_lt.2 hx0)
      · rw [hb] at s2
        exact absurd (lt_of_lt_of_le w.lt (s2.trans h1)) (lt_irrefl _)
    · have h1 : b ≤ knotSeq kv j := by rw [← he]; exact hmono (by omega)
      rcases hx1 with hb | ⟨hb, hb'⟩
      · exact absurd (lt_of_lt_of_le hb (h1.trans s1)) (lt_irrefl _)
      · -- all knots from `e` on are the last knot: support of function `j` is empty
        have hne' : basisC (knotSeq kv) (kv.length - p - 1) p j x = 0 := by
          have hall : ∀ i, j ≤ i → i ≤ j + p + 1 → knotSeq kv i = b := by
            intro i h2 h3
            apply le_antisymm
            · unfold knotSeq
              rw [List.getD_eq_getElem _ _ (by omega)]
              exact hb' _ (List.getElem_mem _)
            · exact h1.trans (hmono h2)
          have : ∀ d i, j ≤ i → i + d + 1 ≤ j + p + 1 → basisC (knotSeq kv) (kv.length - p - 1) d i x = 0 := by
            intro d
            induction d with
            | zero =>
              intro i h2 h3
              simp only [basisC]
              rw [hall i h2 (by omega), hall (i + 1) (by omega) (by omega), hend hb', hb]
              simp
            | succ d ihd =>
              intro i h2 h3
              simp only [basisC]
              rw [ihd i h2 (by omega), ihd (i + 1) (by omega) (by omega)]
              simp
          exact this p j le_rfl (by omega)
        exact hne hne'

/-- a spline with the control points `ids` of `q` -/
def pickPoints (q : Spline K (List K)) (degrees : List ℕ) (kvs : Option (List (List K))) (ids : List ℕ) : Spline K (List K) :=
  { degrees := degrees, knotVectors := kvs, weights := q.weights.map fun ws => ids.map fun g => ws.getD g 0,
    controlPoints := ids.map fun g => q.controlPoints.getD g [] }

theorem weightAt_pick (q : Spline K (List K)) (degrees : List ℕ) (kvs : Option (List (List K))) (ids : List ℕ) (i : ℕ) (h : i < ids.length) :
    weightAt (pickPoints q degrees kvs ids) i = weightAt q (ids.getD i 0) := by
  unfold weightAt pickPoints
  cases q.weights with
  | none => rfl
  | some ws =>
    simp only [Option.map_some]
    rw [List.getD_eq_getElem _ _ (by simpa using h), List.getElem_map, List.getD_eq_getElem ids _ h]

theorem point_pick (q : Spline K (List K)) (degrees : List ℕ) (kvs : Option (List (List K))) (ids : List ℕ) (i : ℕ) (h : i < ids.length) :
    (pickPoints q degrees kvs ids).controlPoints.getD i [] = q.controlPoints.getD (ids.getD i 0) [] := by
  unfold pickPoints
  simp only
  rw [List.getD_eq_getElem _ _ (by simpa using h), List.getElem_map, List.getD_eq_getElem ids _ h]

theorem weights_pick {q : Spline K (List K)} (hq : ValidSpline q) (degrees : List ℕ) (kvs : Option (List (List K))) (ids : List ℕ)
    (hids : ∀ g ∈ ids, g < q.controlPoints.length) :
    ∀ ws, (pickPoints q degrees kvs ids).weights = some ws → ws.length = (pickPoints q degrees kvs ids).controlPoints.length ∧ ∀ w ∈ ws, 0 < w := by
  intro ws h
  unfold pickPoints at h ⊢
  cases hw : q.weights with
  | none => rw [hw] at h; simp at h
  | some ws' =>
    rw [hw] at h
    simp only [Option.map_some, Option.some.injEq] at h
    subst h
    refine ⟨by simp, ?_⟩
    intro w hm
    obtain ⟨g, hg, rfl⟩ := List.mem_map.1 hm
    obtain ⟨h1, h2⟩ := hq.weights ws' hw
    have := hids g hg
    rw [List.getD_eq_getElem _ _ (by omega)]
    exact h2 _ (List.getElem_mem _)

/-- same numerators and denominators -/
theorem point_of_num {q r : Spline K (List K)} {u u' : List K} (hq : ValidSpline q) (hr : ValidSpline r) (hu : InDomain q u) (hu' : InDomain r u') {c c' : ℕ → K}
    (h1 : num r c' u' = num q c u) (h2 : num r (fun _ => 1) u' = num q (fun _ => 1) u) : value r c' u' = value q c u := by
  rw [value_eq hq hu, value_eq hr hu', h1, h2]

/-- Slice of a refined spline between two knots. -/
theorem cut_between {tol : K} {q : Spline K (List K)} (hq : ValidSpline q) {d1 d2 : List ℕ} {p : ℕ} {k1 k2 : List (List K)} {kv : List K}
    (hd : q.degrees = d1 ++ p :: d2) (hk : q.knotVectors = some (k1 ++ kv :: k2)) (h1 : d1.length = k1.length) {st e : ℕ} {a b : K}
    (w : Window kv p st e a b) (ha : lastWithin tol kv a = some (st + p)) (hb : lastWithin tol kv b = some (e + p)) :
    ∃ ids, (∀ bezier, cut tol bezier q d1.length (.between a b) =
        some (pickPoints q q.degrees (if bezier then none else some (k1 ++ (kv.take (e + p + 1)).drop st :: k2)) ids)) ∧
      ValidSpline (pickPoints q q.degrees (some (k1 ++ (kv.take (e + p + 1)).drop st :: k2)) ids) ∧
      ∀ (u1 : List K) (x : K) (u2 : List K), u1.length = d1.length → a ≤ x → (x < b ∨ (x = b ∧ ∀ v ∈ kv, v ≤ b)) → InDomain q (u1 ++ x :: u2) →
        InDomain (pickPoints q q.degrees (some (k1 ++ (kv.take (e + p + 1)).drop st :: k2)) ids) (u1 ++ x :: u2) ∧
        ∀ k, point (pickPoints q q.degrees (some (k1 ++ (kv.take (e + p + 1)).drop st :: k2)) ids) (u1 ++ x :: u2) k = point q (u1 ++ x :: u2) k := by
  have ho := w.order
  have hz := w.size
  obtain ⟨s1, s2, s3, s4⟩ := w.slice
  set D1 := List.zipWith (fun d kv => (⟨d, some kv⟩ : Direction K)) d1 k1 with hD1
  set D2 := List.zipWith (fun d kv => (⟨d, some kv⟩ : Direction K)) d2 k2 with hD2
  have hdq : directions q = D1 ++ ⟨p, some kv⟩ :: D2 := directions_split hd hk h1
  set l1 := D1.map Direction.size with hl1
  set l2 := D2.map Direction.size with hl2
  have hnq : netSize q = l1 ++ (kv.length - p - 1) :: l2 := by unfold netSize; rw [hdq]; simp [Direction.size, hl1, hl2]
  have hl1len : l1.length = d1.length := by simp [hl1, hD1, h1]
  set m := kv.length - p - 1 with hm
  set S := ((List.range m).take e).drop st with hS
  have hSlen : S.length = e - st := by simp [hS]; omega
  have hSget : ∀ i < e - st, S.getD i 0 = st + i := by
    intro i hi
    rw [List.getD_eq_getElem _ _ (by omega)]
    simp [hS]
  obtain ⟨ids, i1, i2, i4, i3⟩ := multiIndex_axis l1 l2 m S (by
    intro i hi
    have := List.mem_of_mem_take (List.mem_of_mem_drop hi)
    exact List.mem_range.1 this)
  rw [hSlen] at i2 i3
  have hids : ∀ g ∈ ids, g < q.controlPoints.length := by
    rw [hq.net, hnq]
    exact i4
  set r := pickPoints q q.degrees (some (k1 ++ (kv.take (e + p + 1)).drop st :: k2)) ids with hr
  have hdr : directions r = D1 ++ sliceDirection kv p st e :: D2 := directions_split (q := r) hd rfl h1
  have hnr : netSize r = l1 ++ (e - st) :: l2 := by unfold netSize; rw [hdr]; simp [s1, hl1, hl2]
  have hrv : ValidSpline r := by
    refine ⟨?_, ?_, ?_, weights_pick hq _ _ _ hids⟩
    · intro kvs' hkv
      have : some (k1 ++ (kv.take (e + p + 1)).drop st :: k2) = some kvs' := hkv
      rw [Option.some.injEq] at this
      subst this
      have := hq.knots _ hk
      simp at this ⊢
      exact this
    · intro d hdm
      rw [hdr] at hdm
      have hv := hq.dirs
      rw [hdq] at hv
      rcases List.mem_append.1 hdm with hdm | hdm
      · exact hv d (List.mem_append_left _ hdm)
      · rcases List.mem_cons.1 hdm with hdm | hdm
        · rw [hdm]; exact s4
        · exact hv d (List.mem_append_right _ (List.mem_cons_of_mem _ hdm))
    · rw [hnr, ← i2]
      simp [hr, pickPoints]
  refine ⟨ids, ?_, hrv, ?_⟩
  · intro bezier
    unfold cut
    have e1 : q.degrees[d1.length]? = some p := by rw [hd]; simp
    have e2 : (q.knotVectors.getD [])[d1.length]? = some kv := by rw [hk, h1]; simp
    rw [e1, e2]
    simp only [Plane.first, Plane.last, ha, hb]
    rw [if_neg (by omega)]
    simp only [Nat.add_sub_cancel]
    have e3 : (controlMeshResolutions q).map List.range = l1.map List.range ++ List.range m :: l2.map List.range := by
      rw [netSize_eq_resolutions, hnq]; simp
    have e4 : (controlMeshResolutions q).getD d1.length 0 = m := by
      rw [netSize_eq_resolutions, hnq, ← hl1len]; simp
    rw [e3, e4, netSize_eq_resolutions, hnq]
    have e5 : (l1.map List.range ++ List.range m :: l2.map List.range).set d1.length S = l1.map List.range ++ S :: l2.map List.range := by
      rw [← hl1len, List.set_append_right _ _ (by simp)]
      simp
    rw [e5, i1]
    simp only [Option.map_some, pickPoints, hk, Option.getD_some]
    have e6 : (k1 ++ kv :: k2).set d1.length ((kv.take (e + p + 1)).drop st) = k1 ++ (kv.take (e + p + 1)).drop st :: k2 := by
      rw [h1, List.set_append_right _ _ le_rfl]
      simp
    rw [e6]
  · intro u1 x u2 hu1 hx0 hx1 hu
    have hu' : InDomain r (u1 ++ x :: u2) := by
      unfold InDomain at hu ⊢
      rw [hdq] at hu
      rw [hdr]
      have hl : D1.length = u1.length := by rw [hu1, ← hl1len, hl1, List.length_map]
      rw [List.forall₂_iff_get] at hu ⊢
      obtain ⟨hlen, hget⟩ := hu
      refine ⟨by simpa using hlen, ?_⟩
      intro i hi1 hi2
      simp only [List.get_eq_getElem]
      have hg := hget i (by simpa using hi1) hi2
      simp only [List.get_eq_getElem] at hg
      by_cases hi : i = D1.length
      · subst hi
        have e1 : (D1 ++ sliceDirection kv p st e :: D2)[D1.length] = sliceDirection kv p st e := by simp
        have e2 : (u1 ++ x :: u2)[D1.length] = x := by simp [hl]
        rw [e1, e2]
        refine ⟨by rw [s2]; exact hx0, ?_⟩
        rw [s3]
        rcases hx1 with h | ⟨h, -⟩
        · exact h.le
        · exact h.le
      · have : (D1 ++ sliceDirection kv p st e :: D2)[i] = (D1 ++ (⟨p, some kv⟩ : Direction K) :: D2)[i]'(by simpa using hi1) := by
          rcases Nat.lt_or_gt_of_ne hi with h | h
          · rw [List.getElem_append_left h, List.getElem_append_left h]
          · rw [List.getElem_append_right h.le, List.getElem_append_right h.le]
            obtain ⟨n, hn⟩ : ∃ n, i - D1.length = n + 1 := ⟨i - D1.length - 1, by omega⟩
            simp [hn]
        rw [this]
        exact hg
    refine ⟨hu', fun k => ?_⟩
    obtain ⟨b1, b2⟩ := w.basis hx0 hx1
    have hl : D1.length = u1.length := by rw [hu1, ← hl1len, hl1, List.length_map]
    have key : ∀ c c' : ℕ → K, (∀ i < ids.length, c' i = c (ids.getD i 0)) → num r c' (u1 ++ x :: u2) = num q c (u1 ++ x :: u2) := by
      intro c c' hc
      rw [num_getD, num_getD, hnr, hnq]
      have hbr : basisValues r (u1 ++ x :: u2) = List.zipWith (fun d x j => Direction.basis d x j) D1 u1 ++ (fun j => (sliceDirection kv p st e).basis x j) ::
          List.zipWith (fun d x j => Direction.basis d x j) D2 u2 := by
        unfold basisValues
        rw [hdr, List.zipWith_append hl, List.zipWith_cons_cons]
      have hbq : basisValues q (u1 ++ x :: u2) = List.zipWith (fun d x j => Direction.basis d x j) D1 u1 ++ (fun j => (⟨p, some kv⟩ : Direction K).basis x j) ::
          List.zipWith (fun d x j => Direction.basis d x j) D2 u2 := by
        unfold basisValues
        rw [hdq, List.zipWith_append hl, List.zipWith_cons_cons]
      rw [hbr, hbq]
      apply sum_window _ _ _ _ _ _ _ st _ (by simp [hl, hl1]) (by omega) b1 b2
      intro a' ha' i hi c2 hc2
      have hlt : a' + l1.prod * (i + (e - st) * c2) < ids.length := by
        rw [i2, List.prod_append, List.prod_cons]
        have h2 : i + (e - st) * c2 < (e - st) * l2.prod := by nlinarith
        nlinarith
      have hid := i3 a' ha' i hi c2 hc2
      rw [hSget i hi] at hid
      rw [hc _ hlt, weightAt_pick _ _ _ _ _ hlt, hid]
    apply point_of_num hq hrv hu hu'
    · apply key
      intro i hi
      rw [point_pick _ _ _ _ _ hi]
    · apply key
      intro i hi
      rfl

/-- Section of a refined spline at a parameter where only basis function `st` does not vanish. -/
theorem cut_at {tol : K} {q : Spline K (List K)} (hq : ValidSpline q) {d1 d2 : List ℕ} {p : ℕ} {k1 k2 : List (List K)} {kv : List K}
    (hd : q.degrees = d1 ++ p :: d2) (hk : q.knotVectors = some (k1 ++ kv :: k2)) (h1 : d1.length = k1.length) {i0 st : ℕ} {a : K}
    (ha : lastWithin tol kv a = some (i0 + p)) (hst : (st : ℤ) = if |kv.getD (kv.length - 1) 0 - a| < tol then (i0 : ℤ) - 1 else i0)
    (hlt : st < kv.length - p - 1) (hb : ∀ j, (⟨p, some kv⟩ : Direction K).basis a j = if j = st then 1 else 0) :
    ∃ ids, (∀ bezier, cut tol bezier q d1.length (.at a) = some (pickPoints q (d1 ++ d2) (if bezier then none else some (k1 ++ k2)) ids)) ∧
      ValidSpline (pickPoints q (d1 ++ d2) (some (k1 ++ k2)) ids) ∧
      ∀ (u1 u2 : List K), u1.length = d1.length → InDomain q (u1 ++ a :: u2) → InDomain (pickPoints q (d1 ++ d2) (some (k1 ++ k2)) ids) (u1 ++ u2) ∧
        ∀ k, point (pickPoints q (d1 ++ d2) (some (k1 ++ k2)) ids) (u1 ++ u2) k = point q (u1 ++ a :: u2) k := by
  set D1 := List.zipWith (fun d kv => (⟨d, some kv⟩ : Direction K)) d1 k1 with hD1
  set D2 := List.zipWith (fun d kv => (⟨d, some kv⟩ : Direction K)) d2 k2 with hD2
  have hdq : directions q = D1 ++ ⟨p, some kv⟩ :: D2 := directions_split hd hk h1
  set l1 := D1.map Direction.size with hl1
  set l2 := D2.map Direction.size with hl2
  have hnq : netSize q = l1 ++ (kv.length - p - 1) :: l2 := by unfold netSize; rw [hdq]; simp [Direction.size, hl1, hl2]
  have hl1len : l1.length = d1.length := by simp [hl1, hD1, h1]
  set m := kv.length - p - 1 with hm
  obtain ⟨ids, i1, i2, i4, i3⟩ := multiIndex_axis l1 l2 m [st] (by simpa using hlt)
  have i2' : ids.length = (l1 ++ l2).prod := by rw [i2]; simp
  have hids : ∀ g ∈ ids, g < q.controlPoints.length := by
    rw [hq.net, hnq]
    exact i4
  set r := pickPoints q (d1 ++ d2) (some (k1 ++ k2)) ids with hr
  have hdr : directions r = D1 ++ D2 := by
    have : directions r = List.zipWith (fun d kv => (⟨d, some kv⟩ : Direction K)) (d1 ++ d2) (k1 ++ k2) := rfl
    rw [this, List.zipWith_append h1]
  have hnr : netSize r = l1 ++ l2 := by unfold netSize; rw [hdr]; simp [hl1, hl2]
  have hrv : ValidSpline r := by
    refine ⟨?_, ?_, ?_, weights_pick hq _ _ _ hids⟩
    · intro kvs' hkv
      have : some (k1 ++ k2) = some kvs' := hkv
      rw [Option.some.injEq] at this
      subst this
      have h2 := hq.knots _ hk
      rw [hd] at h2
      have h3 : r.degrees = d1 ++ d2 := rfl
      rw [h3]
      simp at h2 ⊢
      omega
    · intro d hdm
      rw [hdr] at hdm
      have hv := hq.dirs
      rw [hdq] at hv
      rcases List.mem_append.1 hdm with hdm | hdm
      · exact hv d (List.mem_append_left _ hdm)
      · exact hv d (List.mem_append_right _ (List.mem_cons_of_mem _ hdm))
    · rw [hnr, ← i2']
      simp [hr, pickPoints]
  refine ⟨ids, ?_, hrv, ?_⟩
  · intro bezier
    unfold cut
    have e1 : q.degrees[d1.length]? = some p := by rw [hd]; simp
    have e2 : (q.knotVectors.getD [])[d1.length]? = some kv := by rw [hk, h1]; simp
    rw [e1, e2]
    simp only [Plane.first, Plane.last, ha]
    rw [if_neg (by omega)]
    simp only [Nat.add_sub_cancel]
    rw [← hst, if_neg (by omega)]
    have e3 : (controlMeshResolutions q).map List.range = l1.map List.range ++ List.range m :: l2.map List.range := by
      rw [netSize_eq_resolutions, hnq]; simp
    rw [e3, netSize_eq_resolutions, hnq]
    have e5 : (l1.map List.range ++ List.range m :: l2.map List.range).set d1.length [((st : ℤ)).toNat] = l1.map List.range ++ [st] :: l2.map List.range := by
      rw [← hl1len, List.set_append_right _ _ (by simp)]
      simp
    rw [e5, i1]
    simp only [Option.map_some, pickPoints, hk, Option.getD_some, hd]
    have e6 : ∀ {α : Type} (x y : List α) (z : α), (x ++ z :: y).eraseIdx x.length = x ++ y := by
      intro α x y z
      rw [List.eraseIdx_append_of_length_le le_rfl]
      simp
    rw [e6]
    conv_lhs => rw [h1, e6]
  · intro u1 u2 hu1 hu
    have hl : D1.length = u1.length := by rw [hu1, ← hl1len, hl1, List.length_map]
    have hu' : InDomain r (u1 ++ u2) := by
      unfold InDomain at hu ⊢
      rw [hdq] at hu
      rw [hdr]
      have f1 := List.forall₂_take_append _ _ _ hu
      have f2 := List.forall₂_drop_append _ _ _ hu
      rw [← hl, List.take_left] at f1
      rw [← hl, List.drop_left] at f2
      cases f2 with
      | cons _ f3 => exact List.rel_append f1 f3
    refine ⟨hu', fun k => ?_⟩
    have key : ∀ c c' : ℕ → K, (∀ i < ids.length, c' i = c (ids.getD i 0)) → num r c' (u1 ++ u2) = num q c (u1 ++ a :: u2) := by
      intro c c' hc
      rw [num_getD, num_getD, hnr, hnq]
      have hbr : basisValues r (u1 ++ u2) = List.zipWith (fun d x j => Direction.basis d x j) D1 u1 ++
          List.zipWith (fun d x j => Direction.basis d x j) D2 u2 := by
        unfold basisValues
        rw [hdr, List.zipWith_append hl]
      have hbq : basisValues q (u1 ++ a :: u2) = List.zipWith (fun d x j => Direction.basis d x j) D1 u1 ++ (fun j => (⟨p, some kv⟩ : Direction K).basis a j) ::
          List.zipWith (fun d x j => Direction.basis d x j) D2 u2 := by
        unfold basisValues
        rw [hdq, List.zipWith_append hl, List.zipWith_cons_cons]
      rw [hbr, hbq]
      apply sum_drop _ _ _ _ _ _ st (by simp [hl, hl1]) hlt (by rw [hb]; simp) (by intro j _ hj; rw [hb, if_neg hj])
      intro a' ha' c2 hc2
      have hlt : a' + l1.prod * c2 < ids.length := by
        rw [i2', List.prod_append]
        nlinarith
      have hid := i3 a' ha' 0 (by simp) c2 hc2
      simp only [List.length_singleton, one_mul, zero_add, List.getD_cons_zero] at hid
      rw [hc _ hlt, weightAt_pick _ _ _ _ _ hlt, hid]
    apply point_of_num hq hrv hu hu'
    · apply key
      intro i hi
      rw [point_pick _ _ _ _ _ hi]
    · apply key
      intro i hi
      rfl

/-! ### C55 -/

theorem split_at {α : Type} {l : List α} {i : ℕ} {x : α} (h : l[i]? = some x) : ∃ l1 l2, l = l1 ++ x :: l2 ∧ l1.length = i := by
  obtain ⟨hi, e⟩ := List.getElem?_eq_some_iff.1 h
  refine ⟨l.take i, l.drop (i + 1), ?_, by simp; omega⟩
  rw [← e, ← List.drop_eq_getElem_cons, List.take_append_drop]

theorem set_split {α : Type} (l1 l2 : List α) (x y : α) : (l1 ++ x :: l2).set l1.length y = l1 ++ y :: l2 := by
  rw [List.set_append_right _ _ le_rfl]
  simp

/-- a knot of the refined knot vector is an old knot or one of the locations -/
theorem refined_mem {kv kv' locs : List K} (h : ∀ v, v ∉ locs → kv'.count v = kv.count v) {v : K} (hv : v ∈ kv') : v ∈ kv ∨ v ∈ locs := by
  by_cases hl : v ∈ locs
  · exact Or.inr hl
  · left
    rw [← List.one_le_count_iff, ← h v hl]
    exact List.one_le_count_iff.2 hv

theorem sorted_of_valid {q : Spline K (List K)} (hq : ValidSpline q) {d1 d2 : List ℕ} {p : ℕ} {k1 k2 : List (List K)} {kv : List K}
    (hd : q.degrees = d1 ++ p :: d2) (hk : q.knotVectors = some (k1 ++ kv :: k2)) (h1 : d1.length = k1.length) :
    kv.Pairwise (· ≤ ·) ∧ 2 * (p + 1) ≤ kv.length ∧ knotSeq kv p < knotSeq kv (kv.length - p - 1) := by
  have := hq.dirs ⟨p, some kv⟩ (by rw [directions_split hd hk h1]; simp) kv rfl
  exact this

theorem list_split_at (u : List K) (i : ℕ) (h : i < u.length) : ∃ u1 u2, u = u1 ++ u.getD i 0 :: u2 ∧ u1.length = i := by
  apply split_at
  rw [List.getElem?_eq_getElem h, List.getD_eq_getElem _ _ h]

/-- the interval part of `extract.spline` for the spline `c` with knot vectors -/
theorem interval_core {insert : Spline K (List K) → ℕ → List K → Option (Spline K (List K))} {F : Spline K (List K) → Prop} {tol : K}
    {c : Spline K (List K)} {axis p : ℕ} {a b : K} {kvs : List (List K)} {kv : List K} (hc : ValidSpline c) (hk : c.knotVectors = some kvs)
    (hp : c.degrees[axis]? = some p) (hkv : kvs[axis]? = some kv) (h0 : F c)
    (hF : ∀ q, F q → ∃ q', insert q axis [a, b] = some q' ∧ F q' ∧ Spec.Inserted q q' axis [a, b])
    (htol : 0 < tol) (hsep : ∀ v ∈ kv, (v = a ∨ tol ≤ |v - a|) ∧ (v = b ∨ tol ≤ |v - b|)) (hab : a + tol ≤ b) :
    ∃ q r kv', insertLoop insert axis [a, b] (p + 1) c = some q ∧ (cut tol false q axis (.between a b) = some r ∧
        cut tol true q axis (.between a b) = some { r with knotVectors := none }) ∧ ValidSpline r ∧ r.degrees = c.degrees ∧
      r.knotVectors = some (kvs.set axis kv') ∧ Direction.lower ⟨p, some kv'⟩ = a ∧ Direction.upper ⟨p, some kv'⟩ = b ∧
      r.weights.isSome = c.weights.isSome ∧
      (∀ u, InDomain c u → a ≤ u.getD axis 0 → (u.getD axis 0 < b ∨ (u.getD axis 0 = b ∧ ∀ v ∈ kv, v ≤ b)) → InDomain r u ∧ ∀ k, point r u k = point c u k) ∧
      ((∀ v ∈ kv, (v ≤ a ∨ b ≤ v) ∧ kv.count v ≤ p + 1) → kv' = List.replicate (p + 1) a ++ List.replicate (p + 1) b) := by
  obtain ⟨q, e1, rq⟩ := insertLoop_refines hF (p + 1) c hc h0 kvs p kv hk hp hkv
  obtain ⟨kv', g1, g2, g3, g4, g5⟩ := rq.knots
  obtain ⟨d1, d2, hd, hd1⟩ := split_at hp
  obtain ⟨k1, k2, hks, hk1⟩ := split_at hkv
  have hset : ∀ x, kvs.set axis x = k1 ++ x :: k2 := by
    intro x
    rw [hks, ← hk1, set_split]
  rw [hset] at g1
  have hdq : q.degrees = d1 ++ p :: d2 := by rw [rq.degrees, hd]
  have h1 : d1.length = k1.length := by omega
  obtain ⟨hsort, -, -⟩ := sorted_of_valid rq.valid hdq g1 h1
  have hablt : a < b := by linarith
  have hbsep : tol ≤ |b - a| := by rw [abs_of_pos (by linarith)]; linarith
  have hca : p + 1 ≤ kv'.count a := by have := g2 a (by simp); omega
  have hcb : p + 1 ≤ kv'.count b := by have := g2 b (by simp); omega
  have hsa : ∀ v ∈ kv', v = a ∨ tol ≤ |v - a| := by
    intro v hv
    rcases refined_mem g5 hv with h | h
    · exact (hsep v h).1
    · simp only [List.mem_cons, List.not_mem_nil, or_false] at h
      rcases h with h | h
      · exact Or.inl h
      · right; rw [h]; exact hbsep
  have hsb : ∀ v ∈ kv', v = b ∨ tol ≤ |v - b| := by
    intro v hv
    rcases refined_mem g5 hv with h | h
    · exact (hsep v h).2
    · simp only [List.mem_cons, List.not_mem_nil, or_false] at h
      rcases h with h | h
      · right; rw [h, abs_sub_comm]; exact hbsep
      · exact Or.inl h
  obtain ⟨st, a1, a2, a3, a4, a5⟩ := last_knot hsort htol hsa hca
  obtain ⟨e, b1, b2, b3, b4, b5⟩ := last_knot hsort htol hsb hcb
  have w : Window kv' p st e a b := ⟨hsort, b2, hablt, a3, b3⟩
  obtain ⟨ids, c1, c2, c3⟩ := cut_between rq.valid hdq g1 h1 w a1 b1
  obtain ⟨s1, s2, s3, s4⟩ := w.slice
  refine ⟨q, _, (kv'.take (e + p + 1)).drop st, e1, ⟨by rw [← hd1]; exact c1 false, by rw [← hd1]; exact c1 true⟩, c2, rq.degrees, by rw [hset]; rfl, s2, s3, ?_, ?_, ?_⟩
  · rw [← rq.rational]
    simp [pickPoints]
  · intro u hu hx0 hx1
    obtain ⟨m1, m2⟩ := rq.same u hu
    have hlen : axis < u.length := by
      have := hu.length_eq
      have h2 : (directions c).length = c.degrees.length := by
        have := hc.knots _ hk
        unfold directions; rw [hk]; simp [this]
      have := (List.getElem?_eq_some_iff.1 hp).1
      omega
    obtain ⟨u1, u2, hus, hu1⟩ := list_split_at u axis hlen
    rw [hus] at m1
    have hx1' : u.getD axis 0 < b ∨ (u.getD axis 0 = b ∧ ∀ v ∈ kv', v ≤ b) := by
      rcases hx1 with h | ⟨h, h'⟩
      · exact Or.inl h
      · right
        refine ⟨h, fun v hv => ?_⟩
        rcases refined_mem g5 hv with h2 | h2
        · exact h' v h2
        · simp only [List.mem_cons, List.not_mem_nil, or_false] at h2
          rcases h2 with h2 | h2
          · rw [h2]; exact hablt.le
          · exact h2.le
    obtain ⟨n1, n2⟩ := c3 u1 (u.getD axis 0) u2 (by omega) hx0 hx1' m1
    rw [← hus] at n1 n2
    exact ⟨n1, fun k => (n2 k).trans (m2 k)⟩
  · intro hcl
    have ho := w.order
    -- no knots strictly between
    have hcb' : kv'.count b = p + 1 := by
      have h1 := g4 b
      have h2 : kv.count b ≤ p + 1 := by
        by_cases hm : b ∈ kv
        · exact (hcl b hm).2
        · rw [List.count_eq_zero.2 hm]; omega
      omega
    have hbetween : ∀ i, st + p < i → i ≤ e + p → knotSeq kv' i = b := by
      intro i hi1 hi2
      have hmono := KnotInsertion.knotSeq_monotone hsort
      have hle : knotSeq kv' i ≤ b := by rw [← b3 (e + p) (by omega) le_rfl]; exact hmono hi2
      have hgt := a4 i hi1 (by omega)
      have hmem : knotSeq kv' i ∈ kv' := by
        unfold knotSeq
        rw [List.getD_eq_getElem _ _ (by omega)]
        exact List.getElem_mem _
      rcases refined_mem g5 hmem with h2 | h2
      · rcases (hcl _ h2).1 with h3 | h3
        · exact absurd hgt (not_lt.2 h3)
        · exact le_antisymm hle h3
      · simp only [List.mem_cons, List.not_mem_nil, or_false] at h2
        rcases h2 with h2 | h2
        · rw [h2] at hgt; exact absurd hgt (lt_irrefl _)
        · exact h2
    have hlt : (kv'.filter (· < b)).length = st + p + 1 := by
      have hsp := sorted_split hsort b
      have hL : ∀ i, (hi : i < kv'.length) → (i < (kv'.filter (· < b)).length ↔ kv'[i] < b) := by
        intro i hi
        set L := kv'.filter (· < b) with hLd
        constructor
        · intro h
          have : kv'[i] = L[i] := by
            rw [List.getElem_of_eq hsp, List.getElem_append_left (by simp; omega), List.getElem_append_left h]
          rw [this]
          have hm : L[i] ∈ kv'.filter (· < b) := List.getElem_mem h
          simpa using (List.mem_filter.1 hm).2
        · intro h
          by_contra hc
          have hm : kv'[i] ∈ List.replicate (kv'.count b) b ++ kv'.filter (b < ·) := by
            have : kv'[i] = (List.replicate (kv'.count b) b ++ kv'.filter (b < ·))[i - L.length]'(by
                have := congrArg List.length hsp
                simp at this ⊢
                omega) := by
              rw [← List.getElem_append_right (as := L) (by omega) (h₂ := by have := congrArg List.length hsp; simp at this ⊢; omega)]
              simp only [← List.append_assoc]
              exact List.getElem_of_eq hsp _
            rw [this]
            exact List.getElem_mem _
          rcases List.mem_append.1 hm with hm | hm
          · rw [List.eq_of_mem_replicate hm] at h; exact absurd h (lt_irrefl _)
          · rw [List.mem_filter] at hm
            have : b < kv'[i] := by simpa using hm.2
            exact absurd h (not_lt.2 this.le)
      have hk : ∀ i (hi : i < kv'.length), knotSeq kv' i = kv'[i] := by
        intro i hi
        unfold knotSeq
        rw [List.getD_eq_getElem _ _ hi]
      apply le_antisymm
      · by_contra hc
        have h2 := (hL (st + p + 1) (by omega)).1 (by omega)
        rw [← hk, hbetween _ (by omega) (by omega)] at h2
        exact absurd h2 (lt_irrefl _)
      · have h2 := (hL (st + p) (by omega)).2 (by rw [← hk, a3 _ (by omega) le_rfl]; exact hablt)
        omega
    have he : e = st + p + 1 := by omega
    apply List.ext_getElem
    · simp; omega
    · intro i hi1 hi2
      have hi : i < 2 * (p + 1) := by simpa [two_mul] using hi2
      have hk : ((kv'.take (e + p + 1)).drop st)[i] = knotSeq kv' (st + i) := by
        unfold knotSeq
        rw [List.getD_eq_getElem _ _ (by omega)]
        simp
      rw [hk]
      by_cases h : i < p + 1
      · rw [a3 _ (by omega) (by omega), List.getElem_append_left (by simpa using h)]
        simp
      · rw [hbetween _ (by omega) (by omega), List.getElem_append_right (by simp; omega)]
        simp

/-- At the parameter `b` behind the start of a direction of degree `p` a spline does not jump: `b` is the end of the domain, or is repeated at most `p` times. -/
def Spec.NoJump (p : ℕ) (kv : List K) (b : K) : Prop :=
  Direction.lower ⟨p, some kv⟩ < b ∧ (b = Direction.upper ⟨p, some kv⟩ ∨ kv.count b ≤ p)

/-- the end `b` of the interval -/
theorem interval_end {c r : Spline K (List K)} {axis p : ℕ} {a b : K} {kvs : List (List K)} {kv kv' : List K} (hc : ValidSpline c) (hr : ValidSpline r)
    (hk : c.knotVectors = some kvs) (hp : c.degrees[axis]? = some p) (hkv : kvs[axis]? = some kv) (hd : r.degrees = c.degrees)
    (hkr : r.knotVectors = some (kvs.set axis kv')) (hl : Direction.lower ⟨p, some kv'⟩ = a) (hup : Direction.upper ⟨p, some kv'⟩ = b) (hab : a < b)
    (hsame : ∀ u, InDomain c u → a ≤ u.getD axis 0 → (u.getD axis 0 < b ∨ (u.getD axis 0 = b ∧ ∀ v ∈ kv, v ≤ b)) → InDomain r u ∧ ∀ k, point r u k = point c u k) :
    ∀ u, InDomain c u → a ≤ u.getD axis 0 → (u.getD axis 0 < b ∨ (u.getD axis 0 = b ∧ Spec.NoJump p kv b)) → InDomain r u ∧ ∀ k, point r u k = point c u k := by
  intro u hu hx0 hx1
  rcases hx1 with h | ⟨h, hj⟩
  · exact hsame u hu hx0 (Or.inl h)
  by_cases hall : ∀ v ∈ kv, v ≤ b
  · exact hsame u hu hx0 (Or.inr ⟨h, hall⟩)
  obtain ⟨d1, d2, hds, hd1⟩ := split_at hp
  obtain ⟨k1, k2, hks, hk1⟩ := split_at hkv
  have h1 : d1.length = k1.length := by omega
  have hset : kvs.set axis kv' = k1 ++ kv' :: k2 := by rw [hks, ← hk1, set_split]
  rw [hset] at hkr
  have hdc := directions_split hds (by rw [hk, hks]) h1
  have hdr := directions_split (by rw [hd, hds]) hkr h1
  have hlen : axis < u.length := by
    have := hu.length_eq
    rw [hdc] at this
    simp at this
    omega
  obtain ⟨u1, u2, hus, hu1⟩ := list_split_at u axis hlen
  rw [h] at hus
  have hl1 : (List.zipWith (fun d kv => (⟨d, some kv⟩ : Direction K)) d1 k1).length = u1.length := by simp; omega
  have hu' := hu
  unfold InDomain at hu'
  rw [hdc, hus] at hu'
  have f1 := List.forall₂_take_append _ _ _ hu'
  have f2 := List.forall₂_drop_append _ _ _ hu'
  rw [← hl1, List.take_left] at f1
  rw [← hl1, List.drop_left] at f2
  obtain ⟨hbc, f3⟩ := List.forall₂_cons.1 f2
  obtain ⟨hlt, hj⟩ := hj
  have hrd : InDomain r (u1 ++ b :: u2) := by
    unfold InDomain
    rw [hdr]
    refine List.rel_append f1 (.cons ⟨by rw [hl]; exact hab.le, by rw [hup]⟩ f3)
  rw [hus]
  refine ⟨hrd, fun k => ?_⟩
  refine LeftLimit.point_at_end hr hc hdr hdc hl1 hl1 hab ?_ ?_ (by rw [hl]; exact hab) hlt hrd (by rw [← hus]; exact hu) k ?_
  · intro kv2 h2
    left; exact hup.symm
  · intro kv2 h2
    simp only [Option.some.injEq] at h2
    subst h2
    exact hj
  · intro x hxa hxb hx
    have hg : (u1 ++ x :: u2).getD axis 0 = x := by rw [← hu1]; simp
    exact (hsame _ hx (by rw [hg]; exact hxa) (Or.inl (by rw [hg]; exact hxb))).2 k

/-- C55: `extract.spline(axis, [a, b])` of a valid spline with knot vectors returns a valid spline with the parametric bounds `a` and `b` along the axis, unchanged
in the other directions, with the points of the spline at all parameters between `a` and `b`. The end `b` is included if the spline does not jump there: at a knot
with more than degree repetitions inside of the spline the value at the knot belongs to the next span. The contract of `insert_knots` is only required for splines
that occur. -/
theorem extract_interval {insert : Spline K (List K) → ℕ → List K → Option (Spline K (List K))} {F : Spline K (List K) → Prop} {tol : K}
    {s : Spline K (List K)} {axis p : ℕ} {a b : K} {kvs : List (List K)} {kv : List K} (hs : ValidSpline s) (hk : s.knotVectors = some kvs)
    (hp : s.degrees[axis]? = some p) (hkv : kvs[axis]? = some kv) (h0 : F s)
    (hF : ∀ q, F q → ∃ q', insert q axis [a, b] = some q' ∧ F q' ∧ Spec.Inserted q q' axis [a, b])
    (htol : 0 < tol) (hsep : ∀ v ∈ kv, (v = a ∨ tol ≤ |v - a|) ∧ (v = b ∨ tol ≤ |v - b|)) (hab : a + tol ≤ b) :
    ∃ r kv', extractSpline insert tol s axis (.between a b) = some r ∧ ValidSpline r ∧ r.degrees = s.degrees ∧ r.knotVectors = some (kvs.set axis kv') ∧
      Direction.lower ⟨p, some kv'⟩ = a ∧ Direction.upper ⟨p, some kv'⟩ = b ∧ r.weights.isSome = s.weights.isSome ∧
      ∀ u, InDomain s u → a ≤ u.getD axis 0 → (u.getD axis 0 < b ∨ (u.getD axis 0 = b ∧ Spec.NoJump p kv b)) → InDomain r u ∧ ∀ k, point r u k = point s u k := by
  obtain ⟨q, r, kv', e1, ⟨e2, -⟩, e3, e4, e5, e6, e7, e8, e9, -⟩ := interval_core hs hk hp hkv h0 hF htol hsep hab
  refine ⟨r, kv', ?_, e3, e4, e5, e6, e7, e8, interval_end hs e3 hk hp hkv e4 e5 e6 e7 (by linarith) e9⟩
  have hw : Create.withKnotVectors s = s := by unfold Create.withKnotVectors; rw [hk]
  unfold extractSpline
  have hax := (List.getElem?_eq_some_iff.1 hp).1
  rw [if_neg (by omega)]
  simp only [hw, hp, Plane.locations, e1, Option.bind_some, hk, Option.isNone_some, e2]

theorem bezier_knots {s : Spline K (List K)} (h : s.knotVectors = none) :
    (Create.withKnotVectors s).knotVectors = some (s.degrees.map fun p => List.replicate (p + 1) 0 ++ List.replicate (p + 1) 1) ∧
      (Create.withKnotVectors s).degrees = s.degrees ∧ (Create.withKnotVectors s).weights = s.weights ∧
      (Create.withKnotVectors s).controlPoints = s.controlPoints := by
  unfold Create.withKnotVectors
  simp [h]

theorem two_ends_count (p : ℕ) {v : K} (hv : v ∈ List.replicate (p + 1) (0 : K) ++ List.replicate (p + 1) 1) :
    (v = 0 ∨ v = 1) ∧ (List.replicate (p + 1) (0 : K) ++ List.replicate (p + 1) 1).count v = p + 1 := by
  rw [List.mem_append] at hv
  have : v = 0 ∨ v = 1 := by
    rcases hv with h | h
    · left; exact List.eq_of_mem_replicate h
    · right; exact List.eq_of_mem_replicate h
  refine ⟨this, ?_⟩
  rw [List.count_append, List.count_replicate, List.count_replicate]
  rcases this with h | h <;> simp [h]

/-- C55 for Bezier splines: `extract.spline(axis, [a, b])` with `0 ≤ a < b ≤ 1` returns a Bezier spline whose point at `x` on the axis is the point of the spline at
`a + (b - a) x`. -/
theorem extract_interval_bezier {insert : Spline K (List K) → ℕ → List K → Option (Spline K (List K))} {F : Spline K (List K) → Prop} {tol : K}
    {s : Spline K (List K)} {axis p : ℕ} {a b : K} (hs : ValidSpline s) (hk : s.knotVectors = none) (hp : s.degrees[axis]? = some p)
    (h0 : F (Create.withKnotVectors s)) (hF : ∀ q, F q → ∃ q', insert q axis [a, b] = some q' ∧ F q' ∧ Spec.Inserted q q' axis [a, b])
    (htol : 0 < tol) (ha0 : 0 ≤ a) (hb1 : b ≤ 1) (hsa : a = 0 ∨ tol ≤ a) (hsb : b = 1 ∨ b + tol ≤ 1) (hab : a + tol ≤ b) :
    ∃ r, extractSpline insert tol s axis (.between a b) = some r ∧ ValidSpline r ∧ r.degrees = s.degrees ∧ r.knotVectors = none ∧
      r.weights.isSome = s.weights.isSome ∧
      ∀ u, InDomain s u → ∀ k, point r u k = point s (u.set axis (a + (b - a) * u.getD axis 0)) k := by
  obtain ⟨w1, w2, w3, w4⟩ := bezier_knots hk
  obtain ⟨v1, -, v3⟩ := Create.withKnotVectors_evaluates hs
  have hkv : (s.degrees.map fun p => List.replicate (p + 1) (0 : K) ++ List.replicate (p + 1) 1)[axis]? =
      some (List.replicate (p + 1) 0 ++ List.replicate (p + 1) 1) := by
    rw [List.getElem?_map, hp]; rfl
  have hablt : a < b := by linarith
  have hsep : ∀ v ∈ List.replicate (p + 1) (0 : K) ++ List.replicate (p + 1) 1, (v = a ∨ tol ≤ |v - a|) ∧ (v = b ∨ tol ≤ |v - b|) := by
    intro v hv
    rcases (two_ends_count p hv).1 with h | h
    · subst h
      constructor
      · rcases hsa with h | h
        · exact Or.inl h.symm
        · right; rw [zero_sub, abs_neg, abs_of_nonneg ha0]; exact h
      · right; rw [zero_sub, abs_neg, abs_of_nonneg (by linarith)]; linarith
    · subst h
      constructor
      · right; rw [abs_of_nonneg (by linarith)]; linarith
      · rcases hsb with h | h
        · exact Or.inl h.symm
        · right; rw [abs_of_nonneg (by linarith)]; linarith
  obtain ⟨q, r, kv', e1, ⟨-, e2⟩, e3, e4, e5, e6, e7, e8, e9, e10⟩ := interval_core v1 w1 (by rw [w2]; exact hp) hkv h0 hF htol hsep hab
  have e9 := interval_end v1 e3 w1 (by rw [w2]; exact hp) hkv e4 e5 e6 e7 hablt e9
  have hkv' := e10 (by
    intro v hv
    obtain ⟨h, h'⟩ := two_ends_count p hv
    refine ⟨?_, h'.le⟩
    rcases h with h | h
    · left; rw [h]; exact ha0
    · right; rw [h]; exact hb1)
  obtain ⟨d1, d2, hd, hd1⟩ := split_at hp
  have hset : (s.degrees.map fun p => List.replicate (p + 1) (0 : K) ++ List.replicate (p + 1) 1).set axis kv' =
      (d1.map fun p => List.replicate (p + 1) (0 : K) ++ List.replicate (p + 1) 1) ++ kv' :: (d2.map fun p => List.replicate (p + 1) (0 : K) ++ List.replicate (p + 1) 1) := by
    rw [hd, List.map_append, List.map_cons]
    have : axis = (d1.map fun p => List.replicate (p + 1) (0 : K) ++ List.replicate (p + 1) 1).length := by simp [hd1]
    rw [this, set_split]
  rw [hset] at e5
  have hdr : directions r = (d1.map fun p => (⟨p, some (List.replicate (p + 1) (0 : K) ++ List.replicate (p + 1) 1)⟩ : Direction K)) ++
      ⟨p, some kv'⟩ :: (d2.map fun p => (⟨p, some (List.replicate (p + 1) (0 : K) ++ List.replicate (p + 1) 1)⟩ : Direction K)) := by
    rw [directions_split (by rw [e4, w2, hd]) e5 (by simp), List.zipWith_map_right, List.zipWith_self, List.zipWith_map_right, List.zipWith_self]
  have hkl : kv'.length = 2 * (p + 1) := by rw [hkv']; simp; omega
  have hds : directions s = (d1.map fun p => (⟨p, none⟩ : Direction K)) ++ ⟨p, none⟩ :: (d2.map fun p => (⟨p, none⟩ : Direction K)) := by
    unfold directions; rw [hk]; simp [hd]
  have hdr0 : directions ({ r with knotVectors := none } : Spline K (List K)) = directions s := by
    unfold directions; rw [hk]; simp [e4, w2]
  have hnr : netSize r = netSize s := by
    unfold netSize
    rw [hdr, hds]
    simp only [List.map_append, List.map_cons, List.map_map]
    congr 1
    · apply List.map_congr_left
      intro p _
      simp [Direction.size]
      omega
    · congr 1
      · simp only [Direction.size, hkl]; omega
      · apply List.map_congr_left
        intro p _
        simp [Direction.size]
        omega
  have hrv : ValidSpline ({ r with knotVectors := none } : Spline K (List K)) := by
    refine ⟨fun kvs h => by simp at h, ?_, ?_, e3.weights⟩
    · intro d hdm kv hkv2
      rw [hdr0, hds] at hdm
      simp only [List.mem_append, List.mem_map, List.mem_cons] at hdm
      rcases hdm with ⟨x, _, rfl⟩ | rfl | ⟨x, _, rfl⟩ <;> simp at hkv2
    · have : netSize ({ r with knotVectors := none } : Spline K (List K)) = netSize r := by
        unfold netSize; rw [hdr0]; exact hnr.symm
      rw [this]
      exact e3.net
  refine ⟨_, ?_, hrv, by rw [← w2]; exact e4, rfl, by rw [← w3]; exact e8, ?_⟩
  · unfold extractSpline
    have hax := (List.getElem?_eq_some_iff.1 hp).1
    rw [if_neg (by omega)]
    simp only [w2, hp, Plane.locations, e1, Option.bind_some, hk, Option.isNone_none, e2]
  · intro u hu k
    have hlen : axis < u.length := by
      have := hu.length_eq
      rw [hds] at this
      simp at this
      omega
    obtain ⟨u1, u2, hus, hu1⟩ := list_split_at u axis hlen
    set x := u.getD axis 0 with hxd
    have hu' := hu
    unfold InDomain at hu'
    rw [hds, hus] at hu'
    have f1 := List.forall₂_take_append _ _ _ hu'
    have f2 := List.forall₂_drop_append _ _ _ hu'
    have hl1 : (d1.map fun p => (⟨p, none⟩ : Direction K)).length = u1.length := by simp [hd1, hu1]
    rw [← hl1, List.take_left] at f1
    rw [← hl1, List.drop_left] at f2
    obtain ⟨hxc, f3⟩ := List.forall₂_cons.1 f2
    have hx0 : 0 ≤ x := hxc.1
    have hx1 : x ≤ 1 := hxc.2
    set y := a + (b - a) * x with hy
    have hy0 : a ≤ y := by have : 0 ≤ (b - a) * x := mul_nonneg (by linarith) hx0; linarith
    have hy1 : y ≤ b := by have : (b - a) * x ≤ (b - a) * 1 := mul_le_mul_of_nonneg_left hx1 (by linarith); linarith
    have huset : u.set axis y = u1 ++ y :: u2 := by
      rw [hus, ← hu1, set_split]
    have hdomy : InDomain s (u1 ++ y :: u2) := by
      unfold InDomain
      rw [hds]
      refine List.rel_append f1 (.cons ⟨?_, ?_⟩ f3)
      · simp only [Direction.lower]; linarith
      · simp only [Direction.upper]; linarith
    obtain ⟨m1, m2⟩ := v3 _ hdomy
    have hget : (u1 ++ y :: u2).getD axis 0 = y := by rw [← hu1]; simp
    obtain ⟨n1, n2⟩ := e9 _ m1 (by rw [hget]; exact hy0) (by
      rw [hget]
      rcases lt_or_eq_of_le hy1 with h | h
      · exact Or.inl h
      · right
        refine ⟨h, ?_, ?_⟩
        · simp only [Direction.lower]
          rw [Create.two_ends_left 0 1 p p le_rfl]
          linarith
        · by_cases hb : b = 1
          · left
            simp only [Direction.upper]
            rw [Create.two_ends_right 0 1 p _ (by simp; omega) (by simp; omega), hb]
          · right
            rw [List.count_eq_zero_of_not_mem]
            · omega
            · intro hm
              rcases (two_ends_count p hm).1 with h2 | h2
              · linarith
              · exact hb h2)
    rw [huset, ← m2 k, ← n2 k, hus]
    unfold point
    apply Create.value_same
    · unfold InDomain at n1
      rw [hdr0, hds, hdr, List.zip_append hl1, List.zip_append (by simp [hd1, hu1]), List.zip_cons_cons, List.zip_cons_cons]
      have hsame : ∀ (ds : List ℕ) (v : List K), List.Forall₂ Direction.Contains (ds.map fun p => (⟨p, none⟩ : Direction K)) v →
          List.Forall₂ Create.SameBasis (List.zip (ds.map fun p => (⟨p, none⟩ : Direction K)) v)
            (List.zip (ds.map fun p => (⟨p, some (List.replicate (p + 1) (0 : K) ++ List.replicate (p + 1) 1)⟩ : Direction K)) v) := by
        intro ds
        induction ds with
        | nil => intro v _; simp
        | cons p ds ih =>
          intro v hv
          cases hv with
          | cons hx hrest =>
            simp only [List.map_cons, List.zip_cons_cons]
            refine .cons ⟨by simp [Direction.size]; omega, fun j hj => ?_⟩ (ih _ hrest)
            exact (Create.two_ends_basis zero_lt_one p hx.1 hx.2 j (by simp only [Direction.size] at hj; omega)).symm
      refine List.rel_append (hsame _ _ f1) (.cons ⟨?_, ?_⟩ (hsame _ _ f3))
      · simp only [Direction.size, hkl]; omega
      · intro j hj
        simp only [Direction.size] at hj
        simp only [Direction.basis, hkl]
        rw [show 2 * (p + 1) - p - 1 = p + 1 by omega, basisC_bernstein hablt hy0 hy1 _ (KnotInsertion.knotSeq_monotone (by
            have := e3.dirs ⟨p, some kv'⟩ (by rw [hdr]; simp) kv' rfl
            exact this.1)) _ _ j (by omega)]
        · unfold bernstein
          have hne : b - a ≠ 0 := by linarith
          have h1 : (y - a) / (b - a) = x := by rw [hy]; field_simp; ring
          have h2 : (b - y) / (b - a) = 1 - x := by rw [hy]; field_simp; ring
          rw [h1, h2]
          simp
        · intro i hi
          rw [hkv']
          exact Create.two_ends_left a b p i hi
        · intro i hi1 hi2
          rw [hkv']
          exact Create.two_ends_right a b p i hi1 (by omega)
    · rw [hdr0, ← hus]; exact hu.length_eq
    · exact n1.length_eq
    · rfl

/-- the last knot is repeated degree + 1 times -/
def Spec.ClampedEnd (p : ℕ) (kv : List K) : Prop := ∃ U ∈ kv, (∀ v ∈ kv, v ≤ U) ∧ kv.count U = p + 1

theorem section_core {insert : Spline K (List K) → ℕ → List K → Option (Spline K (List K))} {F : Spline K (List K) → Prop} {tol : K}
    {c : Spline K (List K)} {axis p : ℕ} {a : K} {kvs : List (List K)} {kv : List K} (hc : ValidSpline c) (hk : c.knotVectors = some kvs)
    (hp : c.degrees[axis]? = some p) (hkv : kvs[axis]? = some kv) (h0 : F c)
    (hF : ∀ q, F q → ∃ q', insert q axis [a] = some q' ∧ F q' ∧ Spec.Inserted q q' axis [a])
    (hcl : Spec.ClampedEnd p kv) (ha : ∃ v ∈ kv, a ≤ v) (htol : 0 < tol) (hsep : ∀ v ∈ kv, v = a ∨ tol ≤ |v - a|) :
    ∃ q ids, insertLoop insert axis [a] (p + 1) c = some q ∧
      (∀ bezier, cut tol bezier q axis (.at a) =
        some (pickPoints q (c.degrees.eraseIdx axis) (if bezier then none else some (kvs.eraseIdx axis)) ids)) ∧
      ValidSpline (pickPoints q (c.degrees.eraseIdx axis) (some (kvs.eraseIdx axis)) ids) ∧ q.weights.isSome = c.weights.isSome ∧
      ∀ u, InDomain c u → u.getD axis 0 = a → InDomain (pickPoints q (c.degrees.eraseIdx axis) (some (kvs.eraseIdx axis)) ids) (u.eraseIdx axis) ∧
        ∀ k, point (pickPoints q (c.degrees.eraseIdx axis) (some (kvs.eraseIdx axis)) ids) (u.eraseIdx axis) k = point c u k := by
  obtain ⟨q, e1, rq⟩ := insertLoop_refines hF (p + 1) c hc h0 kvs p kv hk hp hkv
  obtain ⟨kv', g1, g2, g3, g4, g5⟩ := rq.knots
  obtain ⟨d1, d2, hd, hd1⟩ := split_at hp
  obtain ⟨k1, k2, hks, hk1⟩ := split_at hkv
  have hset : ∀ x, kvs.set axis x = k1 ++ x :: k2 := by
    intro x
    rw [hks, ← hk1, set_split]
  rw [hset] at g1
  have hdq : q.degrees = d1 ++ p :: d2 := by rw [rq.degrees, hd]
  have h1 : d1.length = k1.length := by omega
  obtain ⟨hsort, hlen2, hpm⟩ := sorted_of_valid rq.valid hdq g1 h1
  have hmono := KnotInsertion.knotSeq_monotone hsort
  have hca : p + 1 ≤ kv'.count a := by have := g2 a (by simp); omega
  have hsa : ∀ v ∈ kv', v = a ∨ tol ≤ |v - a| := by
    intro v hv
    rcases refined_mem g5 hv with h | h
    · exact hsep v h
    · exact Or.inl (by simpa using h)
  obtain ⟨i0, a1, a2, a3, a4, a5⟩ := last_knot hsort htol hsa hca
  obtain ⟨U, hUm, hU, hUc⟩ := hcl
  have haU : a ≤ U := by obtain ⟨v, hv, h⟩ := ha; exact h.trans (hU v hv)
  have hU' : ∀ v ∈ kv', v ≤ U := by
    intro v hv
    rcases refined_mem g5 hv with h | h
    · exact hU v h
    · rw [show v = a by simpa using h]; exact haU
  have hUc' : kv'.count U = p + 1 := by
    have h2 := g3 U
    have h3 := g4 U
    omega
  -- the knot vector ends with `p + 1` copies of `U`
  have hR : kv'.filter (U < ·) = [] := by
    rw [List.filter_eq_nil_iff]
    intro v hv
    simpa using hU' v hv
  have hsp := sorted_split hsort U
  rw [hR, List.append_nil, hUc'] at hsp
  set L := kv'.filter (· < U) with hL
  have hlen : kv'.length = L.length + (p + 1) := by conv_lhs => rw [hsp]; simp
  set m := kv'.length - p - 1 with hm
  have hmL : m = L.length := by omega
  have hend : ∀ i, m ≤ i → i < kv'.length → knotSeq kv' i = U := by
    intro i hi1 hi2
    unfold knotSeq
    rw [hsp, List.getD_append_right _ _ _ _ (by omega), List.getD_eq_getElem _ _ (by simp; omega)]
    simp
  have hm1 : 0 < m := by omega
  have hbefore : knotSeq kv' (m - 1) < U := by
    have hmem : knotSeq kv' (m - 1) ∈ L := by
      unfold knotSeq
      rw [hsp, List.getD_append _ _ _ _ (by omega), List.getD_eq_getElem _ _ (by omega)]
      exact List.getElem_mem _
    have hmem : knotSeq kv' (m - 1) ∈ kv'.filter (· < U) := hmem
    simpa using (List.mem_filter.1 hmem).2
  have hlast : kv'.getD (kv'.length - 1) 0 = U := by
    have := hend (kv'.length - 1) (by omega) (by omega)
    unfold knotSeq at this
    rw [List.getD_eq_getElem _ _ (by omega)] at this
    rw [List.getD_eq_getElem _ _ (by omega)]
    exact this
  have htm : knotSeq kv' m = U := hend m le_rfl (by omega)
  have hst : ∃ st : ℕ, ((st : ℤ) = if |kv'.getD (kv'.length - 1) 0 - a| < tol then (i0 : ℤ) - 1 else i0) ∧ st < m ∧
      ∀ j, (⟨p, some kv'⟩ : Direction K).basis a j = if j = st then 1 else 0 := by
    rw [hlast]
    rcases eq_or_lt_of_le haU with h | h
    · -- end of the spline
      have hi0 : i0 = m := by
        have : ¬ i0 + p < kv'.length - 1 := by
          intro hc
          have h2 := a4 (kv'.length - 1) hc (by omega)
          rw [hend _ (by omega) (by omega), h] at h2
          exact absurd h2 (lt_irrefl _)
        omega
      refine ⟨m - 1, ?_, by omega, ?_⟩
      · rw [h, sub_self, abs_zero, if_pos htol, hi0]
        omega
      · intro j
        simp only [Direction.basis]
        rw [h]
        exact basisC_at_end hmono hpm (fun i hi1 hi2 => hend i hi1 (by omega)) htm hbefore j
    · have hUsep : tol ≤ |U - a| := by
        rcases hsep U hUm with h2 | h2
        · exact absurd h2 h.ne'
        · exact h2
      have hlt : i0 + p < m := by
        by_contra hc
        have := hmono (show m ≤ i0 + p by omega)
        rw [htm, a3 _ (by omega) le_rfl] at this
        exact absurd h (not_lt.2 this)
      refine ⟨i0, by rw [if_neg (not_lt.2 hUsep)], by omega, ?_⟩
      intro j
      simp only [Direction.basis]
      exact basisC_at_knot hmono a3 (a4 _ (by omega) (by omega)) (by rw [htm]; exact h) j
  obtain ⟨st, hst1, hst2, hst3⟩ := hst
  obtain ⟨ids, c1, c2, c3⟩ := cut_at rq.valid hdq g1 h1 a1 hst1 hst2 hst3
  have er : ∀ {α : Type} (x y : List α) (z : α), (x ++ z :: y).eraseIdx x.length = x ++ y := by
    intro α x y z
    rw [List.eraseIdx_append_of_length_le le_rfl]
    simp
  have er1 : c.degrees.eraseIdx axis = d1 ++ d2 := by rw [hd, ← hd1, er]
  have er2 : kvs.eraseIdx axis = k1 ++ k2 := by rw [hks, ← hk1, er]
  rw [er1, er2]
  refine ⟨q, ids, e1, by rw [← hd1]; exact c1, c2, rq.rational, ?_⟩
  intro u hu hx
  obtain ⟨m1, m2⟩ := rq.same u hu
  have hlenu : axis < u.length := by
    have := hu.length_eq
    have h2 : (directions c).length = c.degrees.length := by
      have := hc.knots _ hk
      unfold directions; rw [hk]; simp [this]
    have := (List.getElem?_eq_some_iff.1 hp).1
    omega
  obtain ⟨u1, u2, hus, hu1⟩ := list_split_at u axis hlenu
  rw [hx] at hus
  rw [hus] at m1
  obtain ⟨n1, n2⟩ := c3 u1 u2 (by omega) m1
  have er3 : u.eraseIdx axis = u1 ++ u2 := by rw [hus, ← hu1, er]
  rw [er3]
  exact ⟨n1, fun k => by rw [n2 k, ← hus, m2 k]⟩

/-- C55: `extract.spline(axis, a)` of a valid spline with knot vectors, clamped at the end of the axis, returns the section at `a`: a valid spline without the
axis whose points are the points of the spline with `a` on the axis. This includes the end of the spline. -/
theorem extract_section {insert : Spline K (List K) → ℕ → List K → Option (Spline K (List K))} {F : Spline K (List K) → Prop} {tol : K}
    {s : Spline K (List K)} {axis p : ℕ} {a : K} {kvs : List (List K)} {kv : List K} (hs : ValidSpline s) (hk : s.knotVectors = some kvs)
    (hp : s.degrees[axis]? = some p) (hkv : kvs[axis]? = some kv) (h0 : F s)
    (hF : ∀ q, F q → ∃ q', insert q axis [a] = some q' ∧ F q' ∧ Spec.Inserted q q' axis [a])
    (hcl : Spec.ClampedEnd p kv) (ha : ∃ v ∈ kv, a ≤ v) (htol : 0 < tol) (hsep : ∀ v ∈ kv, v = a ∨ tol ≤ |v - a|) :
    ∃ r, extractSpline insert tol s axis (.at a) = some r ∧ ValidSpline r ∧ r.degrees = s.degrees.eraseIdx axis ∧
      r.knotVectors = some (kvs.eraseIdx axis) ∧ r.weights.isSome = s.weights.isSome ∧
      ∀ u, InDomain s u → u.getD axis 0 = a → InDomain r (u.eraseIdx axis) ∧ ∀ k, point r (u.eraseIdx axis) k = point s u k := by
  obtain ⟨q, ids, e1, e2, e3, e4, e5⟩ := section_core hs hk hp hkv h0 hF hcl ha htol hsep
  refine ⟨_, ?_, e3, rfl, rfl, by rw [← e4]; simp [pickPoints], e5⟩
  have hw : Create.withKnotVectors s = s := by unfold Create.withKnotVectors; rw [hk]
  unfold extractSpline
  have hax := (List.getElem?_eq_some_iff.1 hp).1
  rw [if_neg (by omega)]
  simp only [hw, hp, Plane.locations, e1, Option.bind_some, hk, Option.isNone_some, e2]
  rfl

theorem forall₂_eraseIdx {α β : Type} {R : α → β → Prop} {l : List α} {l' : List β} (h : List.Forall₂ R l l') (n : ℕ) :
    List.Forall₂ R (l.eraseIdx n) (l'.eraseIdx n) := by
  induction h generalizing n with
  | nil => simp
  | cons h hrest ih =>
    cases n with
    | zero => simpa using hrest
    | succ n => simp only [List.eraseIdx_cons_succ]; exact .cons h (ih n)

/-- C55 for Bezier splines: the section at `a` in the unit interval is a Bezier spline without the axis. -/
theorem extract_section_bezier {insert : Spline K (List K) → ℕ → List K → Option (Spline K (List K))} {F : Spline K (List K) → Prop} {tol : K}
    {s : Spline K (List K)} {axis p : ℕ} {a : K} (hs : ValidSpline s) (hk : s.knotVectors = none) (hp : s.degrees[axis]? = some p)
    (h0 : F (Create.withKnotVectors s)) (hF : ∀ q, F q → ∃ q', insert q axis [a] = some q' ∧ F q' ∧ Spec.Inserted q q' axis [a])
    (htol : 0 < tol) (ha0 : a = 0 ∨ tol ≤ a) (ha1 : a = 1 ∨ a + tol ≤ 1) :
    ∃ r, extractSpline insert tol s axis (.at a) = some r ∧ ValidSpline r ∧ r.degrees = s.degrees.eraseIdx axis ∧ r.knotVectors = none ∧
      r.weights.isSome = s.weights.isSome ∧
      ∀ u, InDomain s u → u.getD axis 0 = a → InDomain r (u.eraseIdx axis) ∧ ∀ k, point r (u.eraseIdx axis) k = point s u k := by
  obtain ⟨w1, w2, w3, w4⟩ := bezier_knots hk
  obtain ⟨v1, -, v3⟩ := Create.withKnotVectors_evaluates hs
  have hkv : (s.degrees.map fun p => List.replicate (p + 1) (0 : K) ++ List.replicate (p + 1) 1)[axis]? =
      some (List.replicate (p + 1) 0 ++ List.replicate (p + 1) 1) := by
    rw [List.getElem?_map, hp]; rfl
  have h01 : a ≤ 1 := by rcases ha1 with h | h; exact h.le; linarith
  have h00 : 0 ≤ a := by rcases ha0 with h | h; exact h.ge; linarith
  have hcl : Spec.ClampedEnd p (List.replicate (p + 1) (0 : K) ++ List.replicate (p + 1) 1) := by
    refine ⟨1, by simp, ?_, ?_⟩
    · intro v hv
      rcases (two_ends_count p hv).1 with h | h <;> rw [h]
      exact zero_le_one
    · exact (two_ends_count p (by simp)).2
  obtain ⟨q, ids, e1, e2, e3, e4, e5⟩ := section_core v1 w1 (by rw [w2]; exact hp) hkv h0 hF hcl ⟨1, by simp, h01⟩ htol (by
    intro v hv
    rcases (two_ends_count p hv).1 with h | h
    · rcases ha0 with h2 | h2
      · left; rw [h, h2]
      · right; rw [h, zero_sub, abs_neg, abs_of_nonneg h00]; exact h2
    · rcases ha1 with h2 | h2
      · left; rw [h, h2]
      · right; rw [h, abs_of_nonneg (by linarith)]; linarith)
  rw [w2] at e2 e3 e5
  set r := pickPoints q (s.degrees.eraseIdx axis) none ids with hr
  have hker : (s.degrees.map fun p => List.replicate (p + 1) (0 : K) ++ List.replicate (p + 1) 1).eraseIdx axis =
      (s.degrees.eraseIdx axis).map fun p => List.replicate (p + 1) (0 : K) ++ List.replicate (p + 1) 1 := by
    rw [List.eraseIdx_map]
  rw [hker] at e3 e5
  have hrk : pickPoints q (s.degrees.eraseIdx axis) (some ((s.degrees.eraseIdx axis).map fun p => List.replicate (p + 1) (0 : K) ++ List.replicate (p + 1) 1)) ids =
      Create.withKnotVectors r := rfl
  rw [hrk] at e3 e5
  have hdr : directions r = (s.degrees.eraseIdx axis).map fun p => (⟨p, none⟩ : Direction K) := rfl
  have hdk : directions (Create.withKnotVectors r) = (s.degrees.eraseIdx axis).map fun p => ⟨p, some (List.replicate (p + 1) 0 ++ List.replicate (p + 1) 1)⟩ :=
    Create.withKnotVectors_directions rfl
  have hrv : ValidSpline r := by
    refine ⟨fun kvs h => by simp [hr, pickPoints] at h, ?_, ?_, e3.weights⟩
    · intro d hdm kv hkv2
      rw [hdr] at hdm
      obtain ⟨x, _, rfl⟩ := List.mem_map.1 hdm
      simp at hkv2
    · have h1 := e3.net
      have h2 : netSize (Create.withKnotVectors r) = netSize r := by
        unfold netSize
        rw [hdk, hdr, List.map_map, List.map_map]
        apply List.map_congr_left
        intro p _
        simp [Direction.size]
        omega
      rw [h2] at h1
      exact h1
  refine ⟨r, ?_, hrv, rfl, rfl, by rw [← w3, ← e4]; simp [hr, pickPoints], ?_⟩
  · unfold extractSpline
    have hax := (List.getElem?_eq_some_iff.1 hp).1
    rw [if_neg (by omega)]
    simp only [w2, hp, Plane.locations, e1, Option.bind_some, hk, Option.isNone_none, e2]
    rfl
  · intro u hu hx
    obtain ⟨m1, m2⟩ := v3 u hu
    obtain ⟨n1, n2⟩ := e5 u m1 hx
    have hdom : InDomain r (u.eraseIdx axis) := by
      unfold InDomain at hu ⊢
      have hds : directions s = s.degrees.map fun p => (⟨p, none⟩ : Direction K) := by unfold directions; rw [hk]
      rw [hds, List.forall₂_map_left_iff] at hu
      rw [hdr, List.forall₂_map_left_iff]
      exact forall₂_eraseIdx hu axis
    obtain ⟨_, o2⟩ := (Create.withKnotVectors_evaluates hrv).2.2 _ hdom
    exact ⟨hdom, fun k => by rw [← o2 k, n2 k, m2 k]⟩

/-- C55: an axis that is not an axis of the spline is rejected. -/
theorem extract_rejects_axis (insert : Spline K (List K) → ℕ → List K → Option (Spline K (List K))) (tol : K) (s : Spline K (List K)) (axis : ℕ) (plane : Plane K)
    (h : s.degrees.length ≤ axis) : extractSpline insert tol s axis plane = none := by
  unfold extractSpline
  split
  · rfl
  · have hd : (Create.withKnotVectors s).degrees = s.degrees := by
      unfold Create.withKnotVectors
      split <;> rfl
    simp only [hd]
    rw [List.getElem?_eq_none h]

/-- C55: the checks before the C++ core reject an axis if and only if python's indexing does, which accepts the negative axes down to minus the number of axes. -/
theorem rejected_axes (n : ℕ) (axis : ℤ) : coreDimension n axis = none ↔ axis < -n ∨ (n : ℤ) ≤ axis := by
  unfold coreDimension
  split
  · simp only [true_iff]; omega
  · split
    · simp only [true_iff]; omega
    · split
      · simp only [true_iff]; omega
      · simp only [reduceCtorEq, false_iff]; omega

/-- C55: every negative axis that python's indexing accepts is handed to the C++ core as a negative dimension instead of being rejected. -/
theorem negative_axis_violates (n : ℕ) (axis : ℤ) (h1 : -(n : ℤ) ≤ axis) (h2 : axis < 0) : coreDimension n axis = some axis := by
  unfold coreDimension
  rw [if_neg (by omega), if_neg (by omega), if_neg (by omega)]

example : coreDimension 2 (-1) = some (-1) := negative_axis_violates 2 (-1) (by norm_num) (by norm_num)

/-! ### an instance: the second half of a line -/

/-- the line with the knot 1/2 inserted `n` times -/
def exampleLine : ℕ → Spline ℚ (List ℚ)
  | 0 => { degrees := [1], knotVectors := some [[0, 0, 1, 1]], weights := none, controlPoints := [[0], [2]] }
  | 1 => { degrees := [1], knotVectors := some [[0, 0, 1/2, 1, 1]], weights := none, controlPoints := [[0], [1], [2]] }
  | _ => { degrees := [1], knotVectors := some [[0, 0, 1/2, 1/2, 1, 1]], weights := none, controlPoints := [[0], [1], [1], [2]] }

theorem exampleLine_valid (n : ℕ) : ValidSpline (exampleLine n) := by
  match n with
  | 0 =>
    refine ⟨?_, ?_, rfl, ?_⟩
    · intro kvs h; simp [exampleLine] at h; subst h; rfl
    · intro d hd kv hkv
      simp [exampleLine, directions] at hd
      subst hd
      simp at hkv
      subst hkv
      refine ⟨by norm_num, by simp, ?_⟩
      norm_num [Direction.lower, Direction.upper, knotSeq]
    · intro ws h; simp [exampleLine] at h
  | 1 =>
    refine ⟨?_, ?_, rfl, ?_⟩
    · intro kvs h; simp [exampleLine] at h; subst h; rfl
    · intro d hd kv hkv
      simp [exampleLine, directions] at hd
      subst hd
      simp at hkv
      subst hkv
      refine ⟨by norm_num, by simp, ?_⟩
      norm_num [Direction.lower, Direction.upper, knotSeq]
    · intro ws h; simp [exampleLine] at h
  | n + 2 =>
    refine ⟨?_, ?_, rfl, ?_⟩
    · intro kvs h; simp [exampleLine] at h; subst h; rfl
    · intro d hd kv hkv
      simp [exampleLine, directions] at hd
      subst hd
      simp at hkv
      subst hkv
      refine ⟨by norm_num, by simp, ?_⟩
      norm_num [Direction.lower, Direction.upper, knotSeq]
    · intro ws h; simp [exampleLine] at h

theorem exampleLine_domain (n : ℕ) (u : List ℚ) : InDomain (exampleLine n) u ↔ ∃ x, u = [x] ∧ 0 ≤ x ∧ x ≤ 1 := by
  have hl : ∀ kv : List ℚ, List.Forall₂ Direction.Contains [(⟨1, some kv⟩ : Direction ℚ)] u ↔ ∃ x, u = [x] ∧ Direction.Contains ⟨1, some kv⟩ x := by
    intro kv
    rcases u with _ | ⟨x, _ | ⟨y, u⟩⟩ <;> simp
  match n with
  | 0 => simp [InDomain, exampleLine, directions, hl, Direction.Contains, Direction.lower, Direction.upper, knotSeq]
  | 1 => simp [InDomain, exampleLine, directions, hl, Direction.Contains, Direction.lower, Direction.upper, knotSeq]
  | n + 2 => simp [InDomain, exampleLine, directions, hl, Direction.Contains, Direction.lower, Direction.upper, knotSeq]

theorem exampleLine_point (n : ℕ) (x : ℚ) (h0 : 0 ≤ x) (h1 : x ≤ 1) (k : ℕ) : point (exampleLine n) [x] k = if k = 0 then 2 * x else 0 := by
  match n with
  | 0 =>
    rcases eq_or_lt_of_le h1 with rfl | h
    · cases k <;> norm_num [point, value, exampleLine, netSize, directions, Direction.size, tensorEval, basisProduct, basisValues, digits, Direction.basis, basisC, knotSeq, List.range_succ]
    · cases k <;> norm_num [point, value, exampleLine, netSize, directions, Direction.size, tensorEval, basisProduct, basisValues, digits, Direction.basis, basisC, knotSeq, List.range_succ, h.ne, h, h0] <;> ring
  | 1 =>
    rcases eq_or_lt_of_le h1 with rfl | h
    · cases k <;> norm_num [point, value, exampleLine, netSize, directions, Direction.size, tensorEval, basisProduct, basisValues, digits, Direction.basis, basisC, knotSeq, List.range_succ]
    · rcases lt_or_ge x (1/2) with h2 | h2
      · cases k <;> norm_num [point, value, exampleLine, netSize, directions, Direction.size, tensorEval, basisProduct, basisValues, digits, Direction.basis, basisC, knotSeq, List.range_succ, h.ne, h, h0, h2, not_le.2 h2] <;> ring
      · cases k <;> norm_num [point, value, exampleLine, netSize, directions, Direction.size, tensorEval, basisProduct, basisValues, digits, Direction.basis, basisC, knotSeq, List.range_succ, h.ne, h, h0, h2, not_lt.2 h2] <;> ring
  | n + 2 =>
    rw [show exampleLine (n + 2) = { degrees := [1], knotVectors := some [[0, 0, 1/2, 1/2, 1, 1]], weights := none, controlPoints := [[0], [1], [1], [2]] } from rfl]
    rcases eq_or_lt_of_le h1 with rfl | h
    · cases k <;> norm_num [point, value, netSize, directions, Direction.size, tensorEval, basisProduct, basisValues, digits, Direction.basis, basisC, knotSeq, List.range_succ]
    · rcases lt_or_ge x (1/2) with h2 | h2
      · cases k <;> norm_num [point, value, netSize, directions, Direction.size, tensorEval, basisProduct, basisValues, digits, Direction.basis, basisC, knotSeq, List.range_succ, h.ne, h, h0, h2, not_le.2 h2] <;> ring
      · cases k <;> norm_num [point, value, netSize, directions, Direction.size, tensorEval, basisProduct, basisValues, digits, Direction.basis, basisC, knotSeq, List.range_succ, h.ne, h, h0, h2, not_lt.2 h2] <;> ring

/-- inserts the knot 1/2 into the line -/
def exampleInsert (q : Spline ℚ (List ℚ)) (_ : ℕ) (_ : List ℚ) : Option (Spline ℚ (List ℚ)) :=
  if q.controlPoints.length = 2 then some (exampleLine 1) else some (exampleLine 2)

theorem exampleInsert_inserts (q : Spline ℚ (List ℚ)) (hq : ∃ n < 3, q = exampleLine n) (b : ℚ) (hb : b = 1) :
    ∃ q', exampleInsert q 0 [1/2, b] = some q' ∧ (∃ n < 3, q' = exampleLine n) ∧ Spec.Inserted q q' 0 [1/2, b] := by
  subst hb
  have key : ∀ n m, (∀ v : ℚ, ((exampleLine m).knotVectors.getD [] |>.getD 0 []).count v = max (((exampleLine n).knotVectors.getD [] |>.getD 0 []).count v)
      (min 2 (((exampleLine n).knotVectors.getD [] |>.getD 0 []).count v + [1/2, 1].count v))) → Spec.Inserted (exampleLine n) (exampleLine m) 0 [1/2, 1] := by
    intro n m hc
    have hd : ∀ n, (exampleLine n).degrees = [1] := by intro n; match n with | 0 => rfl | 1 => rfl | n + 2 => rfl
    have hw : ∀ n, (exampleLine n).weights = none := by intro n; match n with | 0 => rfl | 1 => rfl | n + 2 => rfl
    have hk : ∀ n, ∃ kv, (exampleLine n).knotVectors = some [kv] := by intro n; match n with | 0 => exact ⟨_, rfl⟩ | 1 => exact ⟨_, rfl⟩ | n + 2 => exact ⟨_, rfl⟩
    refine ⟨exampleLine_valid m, by rw [hd, hd], ?_, by rw [hw, hw], ?_⟩
    · intro kvs p kv h1 h2 h3
      obtain ⟨kn, en⟩ := hk n
      obtain ⟨km, em⟩ := hk m
      rw [en, Option.some.injEq] at h1
      subst h1
      rw [hd] at h2
      simp only [List.getElem?_cons_zero, Option.some.injEq] at h2 h3
      subst h2 h3
      refine ⟨km, by rw [em]; rfl, fun v => ?_⟩
      have := hc v
      rw [en, em] at this
      simpa using this
    · intro u hu
      obtain ⟨x, rfl, h0, h1⟩ := (exampleLine_domain n u).1 hu
      refine ⟨(exampleLine_domain m _).2 ⟨x, rfl, h0, h1⟩, fun k => ?_⟩
      rw [exampleLine_point _ _ h0 h1, exampleLine_point _ _ h0 h1]
  obtain ⟨n, hn, rfl⟩ := hq
  have hcases : ∀ v : ℚ, v = 0 ∨ v = 1/2 ∨ v = 1 ∨ (0 ≠ v ∧ 1/2 ≠ v ∧ 1 ≠ v) := by
    intro v
    by_cases h1 : v = 0
    · exact Or.inl h1
    · by_cases h2 : v = 1/2
      · exact Or.inr (Or.inl h2)
      · by_cases h3 : v = 1
        · exact Or.inr (Or.inr (Or.inl h3))
        · exact Or.inr (Or.inr (Or.inr ⟨fun h => h1 h.symm, fun h => h2 h.symm, fun h => h3 h.symm⟩))
  have c01 : Spec.Inserted (exampleLine 0) (exampleLine 1) 0 [1/2, 1] := by
    apply key
    intro v
    rcases hcases v with rfl | rfl | rfl | ⟨h1, h2, h3⟩
    · decide +kernel
    · decide +kernel
    · decide +kernel
    · simp only [exampleLine, Option.getD_some, List.getD_cons_zero, List.count_cons_of_ne h1, List.count_cons_of_ne h2, List.count_cons_of_ne h3, List.count_nil]
      omega
  have c12 : Spec.Inserted (exampleLine 1) (exampleLine 2) 0 [1/2, 1] := by
    apply key
    intro v
    rcases hcases v with rfl | rfl | rfl | ⟨h1, h2, h3⟩
    · decide +kernel
    · decide +kernel
    · decide +kernel
    · simp only [exampleLine, Option.getD_some, List.getD_cons_zero, List.count_cons_of_ne h1, List.count_cons_of_ne h2, List.count_cons_of_ne h3, List.count_nil]
      omega
  have c22 : Spec.Inserted (exampleLine 2) (exampleLine 2) 0 [1/2, 1] := by
    apply key
    intro v
    rcases hcases v with rfl | rfl | rfl | ⟨h1, h2, h3⟩
    · decide +kernel
    · decide +kernel
    · decide +kernel
    · simp only [exampleLine, Option.getD_some, List.getD_cons_zero, List.count_cons_of_ne h1, List.count_cons_of_ne h2, List.count_cons_of_ne h3, List.count_nil]
      omega
  match n, hn with
  | 0, _ => exact ⟨_, rfl, ⟨1, by omega, rfl⟩, c01⟩
  | 1, _ => exact ⟨_, rfl, ⟨2, by omega, rfl⟩, c12⟩
  | 2, _ => exact ⟨_, rfl, ⟨2, by omega, rfl⟩, c22⟩

example : ∃ r kv', extractSpline exampleInsert (1/1000) (exampleLine 0) 0 (.between (1/2) 1) = some r ∧ ValidSpline r ∧ r.degrees = [1] ∧
    r.knotVectors = some ([[0, 0, 1, 1]].set 0 kv') ∧ Direction.lower ⟨1, some kv'⟩ = (1/2 : ℚ) ∧ Direction.upper ⟨1, some kv'⟩ = 1 ∧ r.weights.isSome = false ∧
    ∀ u, InDomain (exampleLine 0) u → 1/2 ≤ u.getD 0 0 → (u.getD 0 0 < 1 ∨ (u.getD 0 0 = 1 ∧ Spec.NoJump 1 [0, 0, 1, 1] (1 : ℚ))) →
      InDomain r u ∧ ∀ k, point r u k = point (exampleLine 0) u k :=
  extract_interval (F := fun q => ∃ n < 3, q = exampleLine n) (exampleLine_valid 0) rfl rfl rfl ⟨0, by omega, rfl⟩ (fun q hq => exampleInsert_inserts q hq 1 rfl)
    (by norm_num) (by decide +kernel) (by norm_num)

example : extractSpline exampleInsert (1/1000) (exampleLine 0) 0 (.between (1/2) 1) =
    some { degrees := [1], knotVectors := some [[1/2, 1/2, 1, 1]], weights := none, controlPoints := [[1], [2]] } := by decide +kernel

/-- the condition at the end holds there, and at parameters without a knot -/
example : Spec.NoJump 1 [0, 0, 1, 1] (1 : ℚ) ∧ Spec.NoJump 1 [0, 0, 1, 1] (1/2 : ℚ) ∧ Spec.NoJump 2 [0, 0, 0, 1/2, 1/2, 1, 1, 1] (1/2 : ℚ) ∧
    ¬ Spec.NoJump 1 [0, 0, 1/2, 1/2, 1, 1] (1/2 : ℚ) := by
  unfold Spec.NoJump
  decide +kernel

/-! ### a jump -/

/-- a polygon of two pieces that do not meet -/
def exampleJump : Spline ℚ (List ℚ) :=
  { degrees := [1], knotVectors := some [[0, 0, 1/2, 1/2, 1, 1]], weights := none, controlPoints := [[0], [1], [5], [6]] }

/-- C55: at a knot inside of the spline with more repetitions than the degree the extracted piece ends at the limit from the left, which is not the point of the
spline: the property fails there. -/
theorem extract_jump_violates :
    ∃ (insert : Spline ℚ (List ℚ) → ℕ → List ℚ → Option (Spline ℚ (List ℚ))) (r : Spline ℚ (List ℚ)), ValidSpline exampleJump ∧
      (∃ q', insert exampleJump 0 [0, 1/2] = some q' ∧ Spec.Inserted exampleJump q' 0 [0, 1/2] ∧ q' = exampleJump) ∧
      extractSpline insert (1/1000) exampleJump 0 (.between 0 (1/2)) = some r ∧ point r [1/2] 0 = 1 ∧ point exampleJump [1/2] 0 = 5 := by
  have hv : ValidSpline exampleJump := by
    refine ⟨?_, ?_, rfl, ?_⟩
    · intro kvs h; simp [exampleJump] at h; subst h; rfl
    · intro d hd kv hkv
      simp [exampleJump, directions] at hd
      subst hd
      simp at hkv
      subst hkv
      refine ⟨by norm_num, by simp, ?_⟩
      norm_num [Direction.lower, Direction.upper, knotSeq]
    · intro ws h; simp [exampleJump] at h
  refine ⟨fun q _ _ => some q, { degrees := [1], knotVectors := some [[0, 0, 1/2, 1/2]], weights := none, controlPoints := [[0], [1]] }, hv, ⟨_, rfl, ?_, rfl⟩,
    by decide +kernel, by decide +kernel, by decide +kernel⟩
  refine ⟨hv, rfl, ?_, rfl, fun u hu => ⟨hu, fun _ => rfl⟩⟩
  intro kvs p kv h1 h2 h3
  simp only [exampleJump, Option.some.injEq] at h1
  subst h1
  simp only [exampleJump, List.getElem?_cons_zero, Option.some.injEq] at h2 h3
  subst h2 h3
  refine ⟨_, rfl, fun v => ?_⟩
  by_cases h0 : 0 = v
  · subst h0; decide +kernel
  · by_cases h1 : 1/2 = v
    · subst h1; decide +kernel
    · by_cases h2 : 1 = v
      · subst h2; decide +kernel
      · simp only [List.count_cons_of_ne h0, List.count_cons_of_ne h1, List.count_cons_of_ne h2, List.count_nil]
        omega

end Splinepy.ExtractSpline
