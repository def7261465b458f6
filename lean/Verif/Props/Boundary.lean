import Verif.Model.Boundary
import Verif.Props.Grid
import Verif.Props.ExtractSpline

/-!
C89: the boundaries of a spline are its restrictions to the faces of the parametric domain.
-/
set_option linter.unusedSectionVars false
namespace Splinepy.Boundary
open Splinepy.Spec Splinepy.Slice Splinepy.ExtractSpline Finset
open Splinepy.Index (Spline controlMeshResolutions)

variable {K : Type} [Field K] [LinearOrder K] [IsStrictOrderedRing K]

/-! ### Specification -/

/-- The parameter of face `b`: an even number is the lower end of direction `b / 2`, an odd one the upper end. -/
def Spec.faceParameter (d : Direction K) (b : ℕ) : K := if b % 2 = 0 then d.lower else d.upper

/-- The knot at the end that belongs to face `b` occurs exactly degree + 1 times; splines without knots always end in their control points. -/
def Spec.ClampedAt (d : Direction K) (b : ℕ) : Prop := ∀ kv, d.knots = some kv → kv.count (if b % 2 = 0 then kv.headD 0 else kv.getLastD 0) = d.deg + 1

/-! ### Proof -/

theorem digits_split (l1 l2 : List ℕ) (a c : ℕ) (ha : a < l1.prod) : digits (l1 ++ l2) (a + l1.prod * c) = digits l1 a ++ digits l2 c := by
  induction l1 generalizing a with
  | nil =>
    have : a = 0 := by simpa using ha
    subst this
    simp [digits]
  | cons r l1 ih =>
    rw [List.prod_cons] at ha
    have hr : 0 < r := Nat.pos_of_ne_zero (by rintro rfl; simp at ha)
    simp only [List.cons_append, digits, List.prod_cons]
    have h1 : (a + r * l1.prod * c) % r = a % r := by rw [mul_assoc, Nat.add_mul_mod_self_left]
    have h2 : (a + r * l1.prod * c) / r = a / r + l1.prod * c := by rw [mul_assoc, Nat.add_mul_div_left _ _ hr]
    rw [h1, h2, ih (a / r) (Nat.div_lt_of_lt_mul ha)]

/-- ends of a sorted list -/
theorem count_head {kv : List K} (hs : kv.Pairwise (· ≤ ·)) {p : ℕ} (hc : kv.count (kv.headD 0) = p + 1) (hl : p + 1 < kv.length) :
    (∀ i ≤ p, kv.getD i 0 = kv.headD 0) ∧ kv.headD 0 < kv.getD (p + 1) 0 := by
  have hsp := sorted_split hs (kv.headD 0)
  have hlow : kv.filter (· < kv.headD 0) = [] := by
    rw [List.filter_eq_nil_iff]
    intro x hx
    cases kv with
    | nil => simp at hx
    | cons y l =>
      rw [List.pairwise_cons] at hs
      have : y ≤ x := by
        rcases List.mem_cons.1 hx with h | h
        · exact h.ge
        · exact hs.1 x h
      simpa using this
  rw [hlow, hc, List.nil_append] at hsp
  generalize kv.headD 0 = a at hsp
  generalize hf : kv.filter (a < ·) = F at hsp
  have hlen := congrArg List.length hsp
  rw [List.length_append, List.length_replicate] at hlen
  constructor
  · intro i hi
    rw [hsp, List.getD_append _ _ _ _ (by simp; omega), List.getD_eq_getElem _ _ (by simp; omega), List.getElem_replicate]
  · rw [hsp, List.getD_append_right _ _ _ _ (by simp), List.length_replicate, Nat.sub_self, List.getD_eq_getElem _ _ (by omega)]
    have hF : ∀ x ∈ F, a < x := by
      intro x hx
      rw [← hf] at hx
      simpa using (List.mem_filter.1 hx).2
    exact hF _ (List.getElem_mem _)

theorem count_last {kv : List K} (hs : kv.Pairwise (· ≤ ·)) {p : ℕ} (hc : kv.count (kv.getLastD 0) = p + 1) (hl : p + 1 < kv.length) :
    (∀ i, kv.length - p - 1 ≤ i → i < kv.length → kv.getD i 0 = kv.getLastD 0) ∧ kv.getD (kv.length - p - 1 - 1) 0 < kv.getLastD 0 := by
  have hsp := sorted_split hs (kv.getLastD 0)
  have hup : kv.filter (kv.getLastD 0 < ·) = [] := by
    rw [List.filter_eq_nil_iff]
    intro x hx
    obtain ⟨i, hi, rfl⟩ := List.getElem_of_mem hx
    have hne : kv ≠ [] := by rintro rfl; simp at hi
    have e : kv.getLastD 0 = kv[kv.length - 1] := by
      rw [List.getLastD_eq_getLast?, List.getLast?_eq_getElem?, List.getElem?_eq_getElem (by omega)]
      rfl
    rw [e]
    simp only [decide_eq_true_eq, not_lt]
    rcases Nat.lt_or_ge i (kv.length - 1) with h | h
    · exact List.pairwise_iff_getElem.1 hs _ _ _ _ h
    · have : i = kv.length - 1 := by omega
      subst this
      exact le_rfl
  rw [hup, hc, List.append_nil] at hsp
  generalize kv.getLastD 0 = a at hsp
  generalize hf : kv.filter (· < a) = F at hsp
  have hlen := congrArg List.length hsp
  rw [List.length_append, List.length_replicate] at hlen
  constructor
  · intro i hi1 hi2
    rw [hsp, List.getD_append_right _ _ _ _ (by omega), List.getD_eq_getElem _ _ (by simp; omega), List.getElem_replicate]
  · have h1 : kv.length - p - 1 - 1 < F.length := by omega
    have hF : ∀ x ∈ F, x < a := by
      intro x hx
      rw [← hf] at hx
      simpa using (List.mem_filter.1 hx).2
    have e : kv.getD (kv.length - p - 1 - 1) 0 = F[kv.length - p - 1 - 1] := by
      conv_lhs => rw [hsp]
      rw [List.getD_append _ _ _ _ (by rw [← hsp]; exact h1), List.getD_eq_getElem _ _ (by rw [← hsp]; exact h1)]
      simp only [← hsp]
    rw [e]
    exact hF _ (List.getElem_mem _)

/-- At a clamped end one function is one and all others are zero. -/
theorem basis_at_face {d : Direction K} (hv : d.Valid) {b : ℕ} (hc : Spec.ClampedAt d b) (j : ℕ) (hj : j < d.size) :
    d.basis (Spec.faceParameter d b) j = if j = Grid.Spec.planeIndex d.size b then 1 else 0 := by
  obtain ⟨p, knots⟩ := d
  unfold Spec.faceParameter Grid.Spec.planeIndex
  cases knots with
  | none =>
    simp only [Direction.basis, Direction.lower, Direction.upper, Direction.size] at hj ⊢
    split
    · unfold bernstein
      by_cases h : j = 0
      · subst h; simp
      · simp [h]
    · unfold bernstein
      by_cases h : j = p
      · subst h; simp
      · have : p - j ≠ 0 := by omega
        simp [h, this]
  | some kv =>
    obtain ⟨hs, hlen, hlt⟩ := hv kv rfl
    have hm := KnotInsertion.knotSeq_monotone hs
    have hc' : kv.count (if b % 2 = 0 then kv.headD 0 else kv.getLastD 0) = p + 1 := hc kv rfl
    simp only [Direction.basis, Direction.lower, Direction.upper, Direction.size] at hj hlt hlen ⊢
    have hks : ∀ i < kv.length, knotSeq kv i = kv.getD i 0 := by
      intro i hi
      unfold knotSeq
      rw [List.getD_eq_getElem _ _ hi, List.getD_eq_getElem _ _ hi]
    split
    · next h0 =>
      rw [if_pos h0] at hc'
      obtain ⟨h1, h2⟩ := count_head hs hc' (by omega)
      refine basisC_at_knot hm (st := 0) (fun i _ hi => ?_) ?_ hlt j
      · rw [hks i (by omega), hks p (by omega), h1 i (by omega), h1 p le_rfl]
      · rw [hks p (by omega), hks _ (by omega), h1 p le_rfl, zero_add]
        exact h2
    · next h0 =>
      rw [if_neg h0] at hc'
      obtain ⟨h1, h2⟩ := count_last hs hc' (by omega)
      refine basisC_at_end hm hlt (fun i hi1 hi2 => ?_) rfl ?_ j
      · rw [hks i (by omega), hks _ (by omega), h1 i (by omega) (by omega), h1 _ le_rfl (by omega)]
      · rw [hks _ (by omega), hks (kv.length - p - 1) (by omega), h1 _ le_rfl (by omega)]
        exact h2

theorem resolutions_eq {s : Spline K (List K)} : controlMeshResolutions s = netSize s := netSize_eq_resolutions

theorem zip_eraseIdx {α β γ : Type} (f : α → β → γ) (l : List α) (m : List β) (i : ℕ) : List.zipWith f (l.eraseIdx i) (m.eraseIdx i) = (List.zipWith f l m).eraseIdx i := by
  induction l generalizing m i with
  | nil => simp
  | cons x l ih =>
    cases m with
    | nil => simp
    | cons y m =>
      cases i with
      | zero => rfl
      | succ i => simp [ih]

theorem slice_eq {α : Type} (l : List α) (ids : List ℕ) (d : α) (h : ∀ g ∈ ids, g < l.length) : Grid.sliceControlPoints l ids = some (ids.map fun g => l.getD g d) := by
  unfold Grid.sliceControlPoints
  induction ids with
  | nil => rfl
  | cons g ids ih =>
    rw [List.mapM_cons, ih fun x hx => h x (List.mem_cons_of_mem _ hx), List.getElem?_eq_getElem (h g List.mem_cons_self), List.map_cons,
      List.getD_eq_getElem l d (h g List.mem_cons_self)]
    rfl

/-- C89: for a spline with at least two parametric directions, face `b` of the spline is a valid spline without the direction `b / 2`, and its points are the points of the spline
with the lower (even `b`) or upper (odd `b`) end of the direction, if the knot vector of the direction is clamped at this end. -/
theorem boundary_restricts {s : Spline K (List K)} (hs : ValidSpline s) (h2 : 2 ≤ s.degrees.length) {b : ℕ} {d : Direction K} (hd : (directions s)[b / 2]? = some d)
    (hc : Spec.ClampedAt d b) :
    ∃ r, boundary s b = some r ∧ ValidSpline r ∧ r.degrees = s.degrees.eraseIdx (b / 2) ∧ r.knotVectors = (s.knotVectors.map fun kvs => kvs.eraseIdx (b / 2)) ∧
      (r.weights.isSome = s.weights.isSome) ∧ directions r = (directions s).eraseIdx (b / 2) ∧
      ∀ u, InDomain s u → u.getD (b / 2) 0 = Spec.faceParameter d b → InDomain r (u.eraseIdx (b / 2)) ∧ ∀ k, point r (u.eraseIdx (b / 2)) k = point s u k := by
  obtain ⟨D1, D2, hD, hD1⟩ := split_at hd
  have er : ∀ {α : Type} (x y : List α) (z : α), (x ++ z :: y).eraseIdx x.length = x ++ y := by
    intro α x y z
    rw [List.eraseIdx_append_of_length_le le_rfl]
    simp
  have hdirlen : (directions s).length = s.degrees.length := by
    unfold directions
    cases hk : s.knotVectors with
    | none => simp
    | some kvs => simp [hs.knots kvs hk]
  have hvd : d.Valid := hs.dirs d (by rw [hD]; simp)
  set l1 := D1.map Direction.size with hl1
  set l2 := D2.map Direction.size with hl2
  have hnet : netSize s = l1 ++ d.size :: l2 := by unfold netSize; rw [hD]; simp [hl1, hl2]
  have hl1len : l1.length = b / 2 := by simp [hl1, hD1]
  have hsize : ∀ e ∈ directions s, 0 < e.size := by
    intro e he
    have hv := hs.dirs e he
    unfold Direction.size
    cases hk : e.knots with
    | none => simp
    | some kv =>
      obtain ⟨-, h, -⟩ := hv kv hk
      simp only
      omega
  have hpos : ∀ r ∈ netSize s, 0 < r := by
    intro r hr
    obtain ⟨e, he, rfl⟩ := List.mem_map.1 hr
    exact hsize e he
  have hb : b / 2 < (directions s).length := (List.getElem?_eq_some_iff.1 hd).1
  obtain ⟨ids, e1, e2, e3⟩ := Grid.boundary_point_coordinates (netSize s) b hpos (by unfold Grid.Spec.IsBoundary; simp [netSize]; omega)
  have hgd : (netSize s).getD (b / 2) 0 = d.size := by
    rw [hnet, ← hl1len, List.getD_append_right _ _ _ _ le_rfl]
    simp
  rw [hgd] at e3
  set st := Grid.Spec.planeIndex d.size b with hst
  have hstlt : st < d.size := by
    have := hsize d (by rw [hD]; simp)
    rw [hst]
    unfold Grid.Spec.planeIndex
    split <;> omega
  have herase : (netSize s).eraseIdx (b / 2) = l1 ++ l2 := by rw [hnet, ← hl1len, er]
  rw [herase] at e2 e3
  have i2 : ids.length = (l1 ++ l2).prod := e2
  have hlt : ∀ a < l1.prod, ∀ c < l2.prod, a + l1.prod * c < ids.length := by
    intro a ha c hc
    rw [i2, List.prod_append]
    nlinarith
  have i3 : ∀ a < l1.prod, ∀ c < l2.prod, ids.getD (a + l1.prod * c) 0 = a + l1.prod * (st + d.size * c) := by
    intro a ha c hc
    have hl := hlt a ha c hc
    obtain ⟨f1, f2⟩ := e3 _ hl
    rw [List.getD_eq_getElem ids 0 hl]
    refine digits_inj (netSize s) _ _ f1 ?_ ?_
    · rw [hnet, List.prod_append, List.prod_cons]
      have h1 : st + d.size * c < d.size * l2.prod := by nlinarith
      nlinarith
    · rw [f2, digits_split l1 l2 a c ha, hnet, digits_split l1 _ a _ ha, ← hl1len]
      have h3 : (digits l1 a).length = l1.length := digits_length _ _
      have h4 : ∀ (x y : List ℕ) (z : ℕ), (x ++ y).insertIdx x.length z = x ++ z :: y := by
        intro x y z
        induction x with
        | nil => rfl
        | cons w x ih => rw [List.cons_append, List.length_cons, List.insertIdx_succ_cons, ih]; rfl
      rw [← h3, h4]
      simp only [digits]
      rw [Nat.add_mul_mod_self_left, Nat.mod_eq_of_lt hstlt, Nat.add_mul_div_left _ _ (by omega), Nat.div_eq_of_lt hstlt, zero_add]
  have hids : ∀ g ∈ ids, g < s.controlPoints.length := by
    intro g hg
    obtain ⟨l, hl, rfl⟩ := List.getElem_of_mem hg
    rw [hs.net]
    exact (e3 l hl).1
  set r := pickPoints s (s.degrees.eraseIdx (b / 2)) (s.knotVectors.map fun kvs => kvs.eraseIdx (b / 2)) ids with hr
  have hdr : directions r = D1 ++ D2 := by
    have h0 : directions r = (directions s).eraseIdx (b / 2) := by
      unfold directions
      have e4 : r.knotVectors = s.knotVectors.map fun kvs => kvs.eraseIdx (b / 2) := rfl
      have e5 : r.degrees = s.degrees.eraseIdx (b / 2) := rfl
      rw [e4, e5]
      cases hk : s.knotVectors with
      | none => simp only [Option.map_none]; rw [List.eraseIdx_map]
      | some kvs => simp only [Option.map_some]; rw [zip_eraseIdx]
    rw [h0, hD, ← hD1, er]
  have hnr : netSize r = l1 ++ l2 := by unfold netSize; rw [hdr]; simp [hl1, hl2]
  have hrv : ValidSpline r := by
    refine ⟨?_, ?_, ?_, weights_pick hs _ _ _ hids⟩
    · intro kvs' hkv
      have hkv : (s.knotVectors.map fun kvs => kvs.eraseIdx (b / 2)) = some kvs' := hkv
      cases hk : s.knotVectors with
      | none => rw [hk] at hkv; simp at hkv
      | some kvs =>
        rw [hk] at hkv
        have : kvs.eraseIdx (b / 2) = kvs' := by simpa using hkv
        have h3 : r.degrees = s.degrees.eraseIdx (b / 2) := rfl
        rw [← this, h3, List.length_eraseIdx, List.length_eraseIdx, hs.knots kvs hk]
    · intro e he
      rw [hdr] at he
      apply hs.dirs
      rw [hD]
      rcases List.mem_append.1 he with h | h
      · exact List.mem_append_left _ h
      · exact List.mem_append_right _ (List.mem_cons_of_mem _ h)
    · rw [hnr, ← i2]
      simp [hr, pickPoints]
  refine ⟨r, ?_, hrv, rfl, rfl, ?_, ?_, ?_⟩
  · unfold boundary
    rw [if_neg (by omega), resolutions_eq, e1]
    simp only [Option.bind_some]
    rw [slice_eq _ _ [] hids]
    simp only [Option.bind_some]
    cases hw : s.weights with
    | none => simp [hr, pickPoints, hw]
    | some ws =>
      simp only
      rw [slice_eq ws ids 0 (by rw [(hs.weights ws hw).1]; exact hids)]
      simp [hr, pickPoints, hw]
  · simp [hr, pickPoints]
  · rw [hdr, hD, ← hD1, er]
  · intro u hu hface
    have hul : b / 2 < u.length := by rw [← hu.length_eq]; exact hb
    obtain ⟨u1, u2, eu, hu1⟩ := list_split_at u (b / 2) hul
    rw [hface] at eu
    have heu : u.eraseIdx (b / 2) = u1 ++ u2 := by rw [eu, ← hu1, er]
    rw [heu]
    have hl : D1.length = u1.length := by rw [hu1, hD1]
    have hu' : InDomain r (u1 ++ u2) := by
      unfold InDomain at hu ⊢
      rw [hD, eu] at hu
      rw [hdr]
      have f1 := List.forall₂_take_append _ _ _ hu
      have f2 := List.forall₂_drop_append _ _ _ hu
      rw [← hl, List.take_left] at f1
      rw [← hl, List.drop_left] at f2
      cases f2 with
      | cons _ f3 => exact List.rel_append f1 f3
    refine ⟨hu', fun k => ?_⟩
    have key : ∀ c c' : ℕ → K, (∀ i < ids.length, c' i = c (ids.getD i 0)) → num r c' (u1 ++ u2) = num s c u := by
      intro c c' hcc
      rw [num_getD, num_getD, hnr, hnet]
      have hbr : basisValues r (u1 ++ u2) = List.zipWith (fun d x j => Direction.basis d x j) D1 u1 ++
          List.zipWith (fun d x j => Direction.basis d x j) D2 u2 := by
        unfold basisValues
        rw [hdr, List.zipWith_append hl]
      have hbq : basisValues s u = List.zipWith (fun d x j => Direction.basis d x j) D1 u1 ++ (fun j => d.basis (Spec.faceParameter d b) j) ::
          List.zipWith (fun d x j => Direction.basis d x j) D2 u2 := by
        unfold basisValues
        rw [hD, eu, List.zipWith_append hl, List.zipWith_cons_cons]
      rw [hbr, hbq]
      apply sum_drop _ _ _ _ _ _ st (by simp [hl, hl1]) hstlt (by rw [basis_at_face hvd hc _ hstlt, if_pos hst])
        (by intro j hj1 hj; rw [basis_at_face hvd hc _ hj1, if_neg (by rw [← hst]; exact hj)])
      intro a' ha' c2 hc2
      have hlt' := hlt a' ha' c2 hc2
      rw [hcc _ hlt', weightAt_pick _ _ _ _ _ hlt', i3 a' ha' c2 hc2]
    apply point_of_num hs hrv hu hu'
    · apply key
      intro i hi
      rw [point_pick _ _ _ _ _ hi]
    · apply key
      intro i hi
      rfl

/-- C89: without a list of ids every face is returned, in order; otherwise the faces with these numbers. A negative number or a number from twice the parametric dimension on is
rejected, and so is a curve. -/
theorem boundaries_listed (s : Spline K (List K)) (ids : List ℤ) (rs : List (Spline K (List K))) :
    boundaries s ids = some rs ↔ (rs.map some = (if ids = [] then List.range (2 * s.degrees.length) else ids.map Int.toNat).map (boundary s)) ∧
      ∀ i ∈ ids, 0 ≤ i ∧ i < 2 * s.degrees.length := by
  have key : ∀ {α : Type} (l : List α) (f : α → Option (Spline K (List K))) rs, l.mapM f = some rs ↔ rs.map some = l.map f := by
    intro α l f
    induction l with
    | nil => intro rs; cases rs <;> simp
    | cons x l ih =>
      intro rs
      rw [List.mapM_cons, List.map_cons]
      cases hx : f x with
      | none => cases rs <;> simp
      | some y =>
        cases hl : l.mapM f with
        | none =>
          cases rs with
          | nil => simp
          | cons z zs =>
            have := ih zs
            rw [hl] at this
            have h2 : ¬ zs.map some = l.map f := fun h => by simpa using this.2 h
            simp [h2]
        | some ys =>
          cases rs with
          | nil => simp
          | cons z zs =>
            have := ih zs
            rw [hl] at this
            simp only [Option.some.injEq] at this
            simp only [List.map_cons, List.cons.injEq, Option.some.injEq, ← this, Option.bind_eq_bind, Option.bind_some, Option.pure_def]
            constructor
            · rintro ⟨rfl, rfl⟩; exact ⟨rfl, rfl⟩
            · rintro ⟨rfl, rfl⟩; exact ⟨rfl, rfl⟩
  unfold boundaries
  by_cases h : ids = []
  · rw [if_pos h, if_pos h, key]
    simp [h]
  · rw [if_neg h, if_neg h, key]
    constructor
    · intro e
      have hr : ∀ i ∈ ids, 0 ≤ i ∧ i < 2 * s.degrees.length := by
        intro i hi
        by_contra hc
        have : none ∈ rs.map some := by
          rw [e]
          refine List.mem_map.2 ⟨i, hi, ?_⟩
          rw [if_pos (by omega)]
        simp at this
      refine ⟨?_, hr⟩
      rw [e, List.map_map]
      apply List.map_congr_left
      intro i hi
      have := hr i hi
      rw [if_neg (by omega)]
      rfl
    · rintro ⟨e, hr⟩
      rw [e, List.map_map]
      apply List.map_congr_left
      intro i hi
      have := hr i hi
      rw [if_neg (by omega)]
      rfl

/-- A curve has no boundary spline. -/
theorem curve_rejected (s : Spline K (List K)) (h : s.degrees.length ≤ 1) (b : ℕ) : boundary s b = none := if_pos h

/-- A surface whose first knot vector is not clamped. -/
def unclamped : Spline ℚ (List ℚ) := ⟨[2, 1], some [[0, 1, 2, 3, 4, 5], [0, 0, 1, 1]], none, [[0], [2], [4], [0], [2], [4]]⟩

/-- Of a surface that is not clamped the boundary is not on the surface. -/
theorem unclamped_boundary_violates : ValidSpline unclamped ∧ InDomain unclamped [2, 0] ∧ Spec.faceParameter (⟨2, some [0, 1, 2, 3, 4, 5]⟩ : Direction ℚ) 0 = 2 ∧
    ∃ r, boundary unclamped 0 = some r ∧ point r [0] 0 = 0 ∧ point unclamped [2, 0] 0 = 1 := by
  refine ⟨⟨?_, ?_, by decide +kernel, ?_⟩, ?_, ?_, ⟨[1], some [[0, 0, 1, 1]], none, [[0], [0]]⟩, by decide +kernel, by decide +kernel, by decide +kernel⟩
  · intro kvs h
    have : [[0, 1, 2, 3, 4, 5], [0, 0, 1, 1]] = kvs := by simpa [unclamped] using h
    subst this
    rfl
  · intro d hd kv hk
    simp only [unclamped, directions, List.zipWith_cons_cons, List.zipWith_nil_left, List.mem_cons, List.not_mem_nil, or_false] at hd
    rcases hd with rfl | rfl <;> (rw [Option.some.injEq] at hk; subst hk; decide +kernel)
  · intro ws h
    simp [unclamped] at h
  · norm_num [InDomain, unclamped, directions, Direction.Contains, Direction.lower, Direction.upper, knotSeq]
  · decide +kernel

/-- A rational surface with an inner knot. -/
def exampleSurface : Spline ℚ (List ℚ) :=
  ⟨[1, 2], some [[0, 0, 1/2, 1, 1], [0, 0, 0, 2, 2, 2]], some [1, 2, 1, 1, 1, 3, 1, 2, 1], [[0, 0], [1, 0], [2, 0], [0, 1], [1, 1], [3, 1], [0, 2], [1, 2], [2, 5]]⟩

theorem exampleSurface_valid : ValidSpline exampleSurface := by
  refine ⟨?_, ?_, by decide +kernel, ?_⟩
  · intro kvs h
    rw [show exampleSurface.knotVectors = some [[0, 0, 1/2, 1, 1], [0, 0, 0, 2, 2, 2]] from rfl, Option.some.injEq] at h
    subst h
    rfl
  · intro d hd kv hk
    simp only [exampleSurface, directions, List.zipWith_cons_cons, List.zipWith_nil_left, List.mem_cons, List.not_mem_nil, or_false] at hd
    rcases hd with rfl | rfl <;> (rw [Option.some.injEq] at hk; subst hk; decide +kernel)
  · intro ws h
    rw [show exampleSurface.weights = some [1, 2, 1, 1, 1, 3, 1, 2, 1] from rfl, Option.some.injEq] at h
    subst h
    decide +kernel

/-- The four faces of the surface: the upper face of the first direction has the last control point of every row. -/
example : boundary exampleSurface 1 = some ⟨[2], some [[0, 0, 0, 2, 2, 2]], some [1, 3, 1], [[2, 0], [3, 1], [2, 5]]⟩ ∧ (boundaries exampleSurface []).map List.length = some 4 ∧
    boundaries exampleSurface [4] = none := by decide +kernel

example : ∃ r, boundary exampleSurface 1 = some r ∧ ∀ v : ℚ, 0 ≤ v → v ≤ 2 → ∀ k, point r [v] k = point exampleSurface [1, v] k := by
  obtain ⟨r, h1, -, -, -, -, -, h2⟩ := boundary_restricts exampleSurface_valid (b := 1) (d := ⟨1, some [0, 0, 1/2, 1, 1]⟩) (by decide) rfl
    (by
      intro kv hk
      rw [Option.some.injEq] at hk
      subst hk
      decide +kernel)
  refine ⟨r, h1, fun v hv0 hv2 k => (h2 [1, v] ?_ ?_).2 k⟩
  · simp [InDomain, exampleSurface, directions, Direction.Contains, Direction.lower, Direction.upper, knotSeq, hv0, hv2]
  · simp [Spec.faceParameter, Direction.upper, knotSeq]

end Splinepy.Boundary
