import Verif.Props.ExtractSpline
import Verif.Props.KnotInsertion

/-!
Existence of knot insertion for splines of any number of directions, rational or not: the contract `Spec.Inserted` for `insert_knots` can be met.
-/
set_option linter.unusedSectionVars false
namespace Splinepy.InsertSpline
open Splinepy.Spec Splinepy.KnotInsertion Finset
open Splinepy.Index (Spline)
open Splinepy.ExtractSpline (Spec.Inserted)

variable {K : Type} [Field K] [LinearOrder K] [IsStrictOrderedRing K]

/-- coefficients of the refined net: the matrix `M` along one axis with `n` old and `n'` new rows, `P` coefficients per row -/
def refineNet (P n n' : ℕ) (M : ℕ → ℕ → K) (F : ℕ → K) (g : ℕ) : K :=
  ∑ j ∈ range n, M (g / P % n') j * F (g % P + P * (j + n * (g / P / n')))

theorem refineNet_at (P n n' : ℕ) (M : ℕ → ℕ → K) (F : ℕ → K) {a i c : ℕ} (ha : a < P) (hi : i < n') :
    refineNet P n n' M F (a + P * (i + n' * c)) = ∑ j ∈ range n, M i j * F (a + P * (j + n * c)) := by
  unfold refineNet
  have h1 : (a + P * (i + n' * c)) / P = i + n' * c := by rw [Nat.add_mul_div_left _ _ (by omega), Nat.div_eq_of_lt ha, zero_add]
  have h2 : (a + P * (i + n' * c)) % P = a := by rw [Nat.add_mul_mod_self_left, Nat.mod_eq_of_lt ha]
  rw [h1, h2, Nat.add_mul_mod_self_left, Nat.mod_eq_of_lt hi, Nat.add_mul_div_left _ _ (by omega), Nat.div_eq_of_lt hi, zero_add]

/-- value of a refined net -/
theorem tensor_refine (B1 B2 : List (ℕ → K)) (b b' : ℕ → K) (l1 l2 : List ℕ) (n n' : ℕ) (M : ℕ → ℕ → K) (h1 : B1.length = l1.length)
    (hb : ∀ j < n, b j = ∑ i ∈ range n', M i j * b' i) (F : ℕ → K) :
    ∑ g ∈ range (l1 ++ n :: l2).prod, basisProduct (B1 ++ b :: B2) (digits (l1 ++ n :: l2) g) * F g =
      ∑ g ∈ range (l1 ++ n' :: l2).prod, basisProduct (B1 ++ b' :: B2) (digits (l1 ++ n' :: l2) g) * refineNet l1.prod n n' M F g := by
  rw [sum_range_split, sum_range_split]
  refine sum_congr rfl fun c hc => ?_
  have e1 : ∀ j ∈ range n, ∑ a ∈ range l1.prod, basisProduct (B1 ++ b :: B2) (digits (l1 ++ n :: l2) (a + l1.prod * (j + n * c))) * F (a + l1.prod * (j + n * c)) =
      ∑ a ∈ range l1.prod, ∑ i ∈ range n', basisProduct (B1 ++ b' :: B2) (digits (l1 ++ n' :: l2) (a + l1.prod * (i + n' * c))) * (M i j * F (a + l1.prod * (j + n * c))) := by
    intro j hj
    rw [mem_range] at hj
    refine sum_congr rfl fun a ha => ?_
    rw [mem_range] at ha
    rw [digits_split _ _ _ _ _ _ ha hj, basisProduct_split _ _ _ _ _ _ (by rw [digits_length]; exact h1), hb j hj, Finset.sum_mul, Finset.mul_sum, Finset.sum_mul]
    refine sum_congr rfl fun i hi => ?_
    rw [mem_range] at hi
    rw [digits_split _ _ _ _ _ _ ha hi, basisProduct_split _ _ _ _ _ _ (by rw [digits_length]; exact h1)]
    ring
  rw [sum_congr rfl e1]
  have e2 : ∀ i ∈ range n', ∑ a ∈ range l1.prod, basisProduct (B1 ++ b' :: B2) (digits (l1 ++ n' :: l2) (a + l1.prod * (i + n' * c))) *
      refineNet l1.prod n n' M F (a + l1.prod * (i + n' * c)) =
      ∑ a ∈ range l1.prod, ∑ j ∈ range n, basisProduct (B1 ++ b' :: B2) (digits (l1 ++ n' :: l2) (a + l1.prod * (i + n' * c))) * (M i j * F (a + l1.prod * (j + n * c))) := by
    intro i hi
    rw [mem_range] at hi
    refine sum_congr rfl fun a ha => ?_
    rw [mem_range] at ha
    rw [refineNet_at _ _ _ _ _ ha hi, Finset.mul_sum]
  rw [sum_congr rfl e2, sum_comm]
  rw [sum_comm (s := range n')]
  refine sum_congr rfl fun a _ => ?_
  rw [sum_comm]

/-- the refined basis on the closed domain -/
theorem basisC_refined {p : ℕ} {old ins new : List K} {tol : K} (H : Insertion p old ins new tol) (hend : knotSeq old (old.length - p - 1) = knotSeq old (old.length - 1)) :
    ∃ M : ℕ → ℕ → K, (∀ i < new.length - p - 1, (∀ j, 0 ≤ M i j) ∧ ∑ j ∈ range (old.length - p - 1), M i j = 1) ∧
      ∀ x, knotSeq old p ≤ x → x ≤ knotSeq old (old.length - p - 1) → ∀ j < old.length - p - 1,
        basisC (knotSeq old) (old.length - p - 1) p j x = ∑ i ∈ range (new.length - p - 1), M i j * basisC (knotSeq new) (new.length - p - 1) p i x := by
  obtain ⟨rows, base, e, h⟩ := basis_refined H
  obtain ⟨rows', base', e', hl, hr⟩ := knot_insertion_rows_convex H
  obtain ⟨rows2, base2, e2, hE⟩ := knot_insertion_preserves_end H hend
  rw [e] at e' e2
  obtain ⟨rfl, rfl⟩ : rows = rows' ∧ base = base' := by simpa using e'
  obtain ⟨rfl, rfl⟩ : rows = rows2 ∧ base = base2 := by simpa using e2
  have hn := Ins.newLength H
  have hlen := H.length
  have hmo := knotSeq_monotone H.sorted_old
  have hmn := knotSeq_monotone H.sorted_new
  have hnewend : knotSeq new (new.length - p - 1) = knotSeq old (old.length - p - 1) := by
    apply le_antisymm
    · rw [hend, ← Ins.last H]; exact hmn (by omega)
    · obtain ⟨base, sp, ι, -, -, hι, -, hR⟩ := insertionMatrix_spec H
      have h4 : ∀ q, ∀ k, k + q = p + 1 → ι (old.length - p - 2 + k) ≤ new.length - p - 2 + k := by
        intro q
        induction q with
        | zero =>
          intro k hk
          have := hι (old.length - p - 2 + k) (by omega)
          omega
        | succ q ih =>
          intro k hk
          have h5 := ih (k + 1) (by omega)
          have h6 := hR.emb (show old.length - p - 2 + k < old.length - p - 2 + (k + 1) by omega)
          omega
      have h8 := hR.mono_s (h4 p 1 (by omega))
      rw [hR.eq, show old.length - p - 2 + 1 = old.length - p - 1 by omega] at h8
      exact le_trans h8 (hR.mono_s (by omega))
  have hendnew : ∀ i, new.length - p - 1 ≤ i → knotSeq new i = knotSeq old (old.length - p - 1) := by
    intro i hi
    apply le_antisymm
    · rw [hend, ← Ins.last H]
      rcases Nat.lt_or_ge i (new.length - 1) with h | h
      · exact hmn h.le
      · rw [knotSeq_beyond h]
    · rw [← hnewend]; exact hmn hi
  have hlt1 : knotSeq old p < knotSeq old (old.length - p - 1) := lt_of_le_of_lt (hmo (by omega)) H.last_span
  have hlt : knotSeq new (new.length - p - 1 - 1) < knotSeq old (old.length - p - 1) := by
    have := Ins.lt_end H (i := new.length - p - 1 - 1) (by omega)
    exact this
  refine ⟨fun i j => (rows.getD i []).getD j 0, fun i hi => ?_, fun x h1 h2 j hj => ?_⟩
  · have hmem : rows.getD i [] ∈ rows := by rw [List.getD_eq_getElem _ _ (by omega)]; exact List.getElem_mem _
    obtain ⟨c1, c2, c3, -⟩ := hr _ hmem
    simp only
    refine ⟨fun j => ?_, ?_⟩
    · rcases Nat.lt_or_ge j (rows.getD i []).length with hj | hj
      · rw [List.getD_eq_getElem _ _ hj]; exact c2 _ (List.getElem_mem _)
      · rw [List.getD_eq_default _ _ hj]
    · rw [← c3]
      conv_rhs => rw [show rows.getD i [] = (List.range (old.length - p - 1)).map (fun j => (rows.getD i []).getD j 0) by
        apply List.ext_getElem
        · simpa using c1
        · intro j j1 j2
          rw [List.getElem_map, List.getElem_range, List.getD_eq_getElem _ _ j1]]
      rw [KnotInsertion.list_sum_range]
  · rcases lt_or_eq_of_le h2 with h2 | h2
    · rw [basisC_eq_basis h2.ne, h x h1 h2 j hj]
      refine sum_congr rfl fun i _ => ?_
      rw [basisC_eq_basis (by rw [hnewend]; exact h2.ne)]
    · subst h2
      have hob : ∀ j, basisC (knotSeq old) (old.length - p - 1) p j (knotSeq old (old.length - p - 1)) = if j = old.length - p - 1 - 1 then 1 else 0 := by
        intro j
        refine Slice.basisC_at_end hmo hlt1 (fun i hi1 hi2 => ?_) rfl H.last_span j
        apply le_antisymm
        · rw [hend]; exact hmo (by omega)
        · exact hmo hi1
      have hnb : ∀ j, basisC (knotSeq new) (new.length - p - 1) p j (knotSeq old (old.length - p - 1)) = if j = new.length - p - 1 - 1 then 1 else 0 := by
        intro j
        refine Slice.basisC_at_end hmn ?_ (fun i hi1 hi2 => hendnew i hi1) hnewend hlt j
        rw [hnewend]
        exact lt_of_le_of_lt (hmn (by omega)) hlt
      rw [hob]
      simp only [hnb]
      have hE' := hE (fun k => if k = j then 1 else 0)
      have hmem : rows.getD (new.length - p - 2) [] ∈ rows := by rw [List.getD_eq_getElem _ _ (by omega)]; exact List.getElem_mem _
      obtain ⟨c1, -⟩ := hr _ hmem
      have hmv : mulVec rows (fun k => if k = j then (1 : K) else 0) (new.length - p - 2) = (rows.getD (new.length - p - 2) []).getD j 0 := by
        unfold mulVec
        generalize rows.getD (new.length - p - 2) [] = r at *
        have : r.mapIdx (fun k a => a * (if k = j then (1 : K) else 0)) = (List.range (old.length - p - 1)).map fun k => r.getD k 0 * (if k = j then (1 : K) else 0) := by
          apply List.ext_getElem
          · simp [c1]
          · intro k k1 k2
            rw [List.getElem_mapIdx, List.getElem_map, List.getElem_range, List.getD_eq_getElem _ _ (by simpa using k1)]
        rw [this, KnotInsertion.list_sum_range, Finset.sum_eq_single j]
        · simp
        · intro k _ hk; simp [hk]
        · intro hk; rw [mem_range] at hk; omega
      rw [hmv] at hE'
      rw [Finset.sum_eq_single (new.length - p - 1 - 1)]
      · rw [if_pos rfl, mul_one, show new.length - p - 1 - 1 = new.length - p - 2 by omega, hE', show old.length - p - 1 - 1 = old.length - p - 2 by omega]
        by_cases hh : j = old.length - p - 2
        · rw [if_pos hh, if_pos hh.symm]
        · rw [if_neg hh, if_neg (Ne.symm hh)]
      · intro i _ hi; rw [if_neg hi, mul_zero]
      · intro hi; rw [mem_range] at hi; omega

theorem forall₂_split {α β : Type} {R : α → β → Prop} {a1 a2 : List α} {x : α} {bs : List β} (h : List.Forall₂ R (a1 ++ x :: a2) bs) :
    ∃ b1 y b2, bs = b1 ++ y :: b2 ∧ b1.length = a1.length ∧ List.Forall₂ R a1 b1 ∧ R x y ∧ List.Forall₂ R a2 b2 := by
  induction a1 generalizing bs with
  | nil =>
    cases h with
    | cons h1 h2 => exact ⟨[], _, _, rfl, rfl, .nil, h1, h2⟩
  | cons a a1 ih =>
    cases h with
    | cons h1 h2 =>
      obtain ⟨b1, y, b2, e, e2, r1, r2, r3⟩ := ih h2
      exact ⟨_ :: b1, y, b2, by rw [e]; rfl, by simp [e2], .cons h1 r1, r2, r3⟩

theorem forall₂_join {α β : Type} {R : α → β → Prop} {a1 a2 : List α} {b1 b2 : List β} {x : α} {y : β} (h1 : List.Forall₂ R a1 b1) (hx : R x y)
    (h2 : List.Forall₂ R a2 b2) : List.Forall₂ R (a1 ++ x :: a2) (b1 ++ y :: b2) := by
  induction h1 with
  | nil => exact .cons hx h2
  | cons h _ ih => exact .cons h ih

/-- Knot insertion into a spline exists: for a valid spline whose axis is clamped at both ends, and knots strictly inside of its domain, there is a valid spline with the
refined knot vector and the same points. -/
theorem exists_inserted {tol : K} (s : Spline K (List K)) (hs : ValidSpline s) (dim : ℕ) (hdim : ∀ P ∈ s.controlPoints, P.length = dim) (kvs : List (List K)) (axis p : ℕ)
    (kv new ins : List K) (hk : s.knotVectors = some kvs) (hp : s.degrees[axis]? = some p) (hkv : kvs[axis]? = some kv) (H : Insertion p kv ins new tol)
    (hend : knotSeq kv (kv.length - p - 1) = knotSeq kv (kv.length - 1)) (hcnt : ∀ v ∈ ins, kv.count v + ins.count v ≤ p + 1) :
    ∃ s' : Spline K (List K), Spec.Inserted s s' axis ins ∧ s'.knotVectors = some (kvs.set axis new) ∧ ∀ P ∈ s'.controlPoints, P.length = dim := by
  have hkl := hs.knots kvs hk
  obtain ⟨hax, hpe⟩ := List.getElem?_eq_some_iff.1 hp
  obtain ⟨hax', hkve⟩ := List.getElem?_eq_some_iff.1 hkv
  obtain ⟨d1, d2, hd, hd1⟩ : ∃ d1 d2, s.degrees = d1 ++ p :: d2 ∧ d1.length = axis :=
    ⟨s.degrees.take axis, s.degrees.drop (axis + 1), by rw [← hpe, ← List.drop_eq_getElem_cons, List.take_append_drop], by simp; omega⟩
  obtain ⟨k1, k2, hks, hk1⟩ : ∃ k1 k2, kvs = k1 ++ kv :: k2 ∧ k1.length = axis :=
    ⟨kvs.take axis, kvs.drop (axis + 1), by rw [← hkve, ← List.drop_eq_getElem_cons, List.take_append_drop], by simp; omega⟩
  have hset : kvs.set axis new = k1 ++ new :: k2 := by rw [hks, ← hk1]; simp [List.set_append]
  obtain ⟨M, hM, hbas⟩ := basisC_refined H hend
  have hnl := Ins.newLength H
  have hlen := H.length
  let D1 : List (Direction K) := List.zipWith (fun d kv => ⟨d, some kv⟩) d1 k1
  let D2 : List (Direction K) := List.zipWith (fun d kv => ⟨d, some kv⟩) d2 k2
  have hzip : ∀ kv' : List K, List.zipWith (fun d kv => (⟨d, some kv⟩ : Direction K)) (d1 ++ p :: d2) (k1 ++ kv' :: k2) = D1 ++ ⟨p, some kv'⟩ :: D2 := by
    intro kv'
    rw [List.zipWith_append (by omega)]
    rfl
  have hdirs : directions s = D1 ++ ⟨p, some kv⟩ :: D2 := by
    unfold directions
    rw [hk, hd, hks]
    exact hzip kv
  let l1 := D1.map Direction.size
  let l2 := D2.map Direction.size
  have hnet : netSize s = l1 ++ (kv.length - p - 1) :: l2 := by
    unfold netSize
    rw [hdirs, List.map_append, List.map_cons]
    rfl
  let N' := (l1 ++ (new.length - p - 1) :: l2).prod
  let R := refineNet l1.prod (kv.length - p - 1) (new.length - p - 1) M
  let cps : List (List K) := match s.weights with
    | none => (List.range N').map fun g => (List.range dim).map fun k => R (fun i => (s.controlPoints.getD i []).getD k 0) g
    | some ws => (List.range N').map fun g => (List.range dim).map fun k =>
        R (fun i => ws.getD i 0 * (s.controlPoints.getD i []).getD k 0) g / R (fun i => ws.getD i 0) g
  let s' : Spline K (List K) := ⟨s.degrees, some (kvs.set axis new), s.weights.map fun ws => (List.range N').map fun g => R (fun i => ws.getD i 0) g, cps⟩
  have hdirs' : directions s' = D1 ++ ⟨p, some new⟩ :: D2 := by
    unfold directions
    simp only [s', hset, hd]
    exact hzip new
  have hnet' : netSize s' = l1 ++ (new.length - p - 1) :: l2 := by
    unfold netSize
    rw [hdirs', List.map_append, List.map_cons]
    rfl
  have hcpl : cps.length = N' := by
    simp only [cps]
    cases s.weights <;> simp
  have hdimcp : ∀ P ∈ cps, P.length = dim := by
    intro P hP
    simp only [cps] at hP
    cases hw : s.weights with
    | none =>
      rw [hw] at hP
      obtain ⟨g, _, rfl⟩ := List.mem_map.1 hP
      simp
    | some ws =>
      rw [hw] at hP
      obtain ⟨g, _, rfl⟩ := List.mem_map.1 hP
      simp
  have hmo := knotSeq_monotone H.sorted_old
  have hmn := knotSeq_monotone H.sorted_new
  have hlt1 : knotSeq kv p < knotSeq kv (kv.length - p - 1) := lt_of_le_of_lt (hmo (by omega)) H.last_span
  have hnewend : knotSeq kv (kv.length - p - 1) ≤ knotSeq new (new.length - p - 1) ∧ knotSeq new p ≤ knotSeq kv p := by
    obtain ⟨base, sp, ι, -, -, hι, -, hR⟩ := insertionMatrix_spec H
    have h4 : ∀ q, ∀ k, k + q = p + 1 → ι (kv.length - p - 2 + k) ≤ new.length - p - 2 + k := by
      intro q
      induction q with
      | zero =>
        intro k hk
        have := hι (kv.length - p - 2 + k) (by omega)
        omega
      | succ q ih =>
        intro k hk
        have h5 := ih (k + 1) (by omega)
        have h6 := hR.emb (show kv.length - p - 2 + k < kv.length - p - 2 + (k + 1) by omega)
        omega
    have h8 := hR.mono_s (h4 p 1 (by omega))
    rw [hR.eq, show kv.length - p - 2 + 1 = kv.length - p - 1 by omega] at h8
    refine ⟨le_trans h8 (hR.mono_s (by omega)), ?_⟩
    rw [← hR.eq p]
    refine hR.mono_s ?_
    have : ∀ k, k ≤ ι k := fun k => hR.emb.le_apply
    exact this p
  have hnewfirst : knotSeq new p = knotSeq kv p := by
    refine le_antisymm hnewend.2 ?_
    rw [← H.clamped, ← Ins.first H]
    exact hmn (by omega)
  have hnewlast : knotSeq new (new.length - p - 1) = knotSeq kv (kv.length - p - 1) := by
    refine le_antisymm ?_ hnewend.1
    rw [hend, ← Ins.last H]
    exact hmn (by omega)
  have hpl1 : 0 < (⟨p, some kv⟩ : Direction K).size := by simp [Direction.size]; omega
  have hsize : ∀ d ∈ directions s, 0 < d.size := by
    intro d hdm
    rw [hdirs] at hdm
    have hval := hs.dirs d (by rw [hdirs]; exact hdm)
    obtain ⟨kv', h'⟩ : ∃ kv', d.knots = some kv' := by
      rcases List.mem_append.1 hdm with h | h
      · obtain ⟨i, hi, rfl⟩ := List.getElem_of_mem h
        exact ⟨_, by simp only [D1, List.getElem_zipWith]; rfl⟩
      · rcases List.mem_cons.1 h with rfl | h
        · exact ⟨kv, rfl⟩
        · obtain ⟨i, hi, rfl⟩ := List.getElem_of_mem h
          exact ⟨_, by simp only [D2, List.getElem_zipWith]; rfl⟩
    have := (hval kv' h').2.1
    unfold Direction.size
    rw [h']
    simp only
    omega
  have hP1 : 0 < l1.prod := by
    refine prod_pos_of_forall fun r hr => ?_
    obtain ⟨d, hdm, rfl⟩ := List.mem_map.1 hr
    exact hsize d (by rw [hdirs]; simp [hdm])
  -- positive weights
  have hwpos : ∀ ws, s.weights = some ws → ∀ g < N', 0 < R (fun i => ws.getD i 0) g := by
    intro ws hw g hg
    obtain ⟨hwl, hwp⟩ := hs.weights ws hw
    have hwl' : ws.length = (l1 ++ (kv.length - p - 1) :: l2).prod := by rw [hwl, hs.net, hnet]
    have hn' : 0 < new.length - p - 1 := by omega
    have hgm : g / l1.prod % (new.length - p - 1) < new.length - p - 1 := Nat.mod_lt _ hn'
    obtain ⟨m1, m2⟩ := hM _ hgm
    have hc : g / l1.prod / (new.length - p - 1) < l2.prod := by
      have : g < l1.prod * ((new.length - p - 1) * l2.prod) := by simpa [N', List.prod_append] using hg
      rw [Nat.div_div_eq_div_mul]
      rw [← Nat.mul_assoc] at this
      exact Nat.div_lt_of_lt_mul this
    have hidx : ∀ j < kv.length - p - 1, g % l1.prod + l1.prod * (j + (kv.length - p - 1) * (g / l1.prod / (new.length - p - 1))) < ws.length := by
      intro j hj
      rw [hwl', List.prod_append, List.prod_cons]
      have h1 : g % l1.prod < l1.prod := Nat.mod_lt _ hP1
      have h2 : j + (kv.length - p - 1) * (g / l1.prod / (new.length - p - 1)) + 1 ≤ (kv.length - p - 1) * l2.prod := by
        have h3 := Nat.mul_le_mul_left (kv.length - p - 1) (Nat.succ_le_of_lt hc)
        have h4 : (kv.length - p - 1) * (g / l1.prod / (new.length - p - 1)).succ = (kv.length - p - 1) * (g / l1.prod / (new.length - p - 1)) + (kv.length - p - 1) := Nat.mul_succ _ _
        omega
      have h3 := Nat.mul_le_mul_left l1.prod h2
      have h4 : l1.prod * (j + (kv.length - p - 1) * (g / l1.prod / (new.length - p - 1)) + 1) =
        l1.prod * (j + (kv.length - p - 1) * (g / l1.prod / (new.length - p - 1))) + l1.prod := by ring
      omega
    simp only [R, refineNet]
    have hnn : ∀ j ∈ range (kv.length - p - 1), 0 ≤ M (g / l1.prod % (new.length - p - 1)) j *
        ws.getD (g % l1.prod + l1.prod * (j + (kv.length - p - 1) * (g / l1.prod / (new.length - p - 1)))) 0 := by
      intro j hj
      rw [mem_range] at hj
      rw [List.getD_eq_getElem _ _ (hidx j hj)]
      exact mul_nonneg (m1 j) (hwp _ (List.getElem_mem _)).le
    refine lt_of_le_of_ne (Finset.sum_nonneg hnn) fun h0 => ?_
    rw [eq_comm, Finset.sum_eq_zero_iff_of_nonneg hnn] at h0
    have : ∑ j ∈ range (kv.length - p - 1), M (g / l1.prod % (new.length - p - 1)) j = 0 := by
      refine Finset.sum_eq_zero fun j hj => ?_
      have h1 := h0 j hj
      rw [mem_range] at hj
      rw [List.getD_eq_getElem _ _ (hidx j hj)] at h1
      exact (mul_eq_zero.1 h1).resolve_right (hwp _ (List.getElem_mem _)).ne'
    rw [m2] at this
    exact one_ne_zero this
  have hvalid : ValidSpline s' := by
    refine ⟨?_, ?_, ?_, ?_⟩
    · intro kvs' h
      simp only [s', Option.some.injEq] at h ⊢
      rw [← h, List.length_set, hkl]
    · intro d hdm
      rw [hdirs'] at hdm
      have hold : ∀ d ∈ D1 ++ ⟨p, some kv⟩ :: D2, d.Valid := by rw [← hdirs]; exact hs.dirs
      rcases List.mem_append.1 hdm with h | h
      · exact hold d (by simp [h])
      · rcases List.mem_cons.1 h with rfl | h
        · intro kv' hkv'
          simp only [Option.some.injEq] at hkv'
          subst hkv'
          refine ⟨H.sorted_new, by simp only; omega, ?_⟩
          simp only [Direction.lower, Direction.upper]
          rw [hnewfirst, hnewlast]
          exact hlt1
        · exact hold d (by simp [h])
    · rw [hnet']
      exact hcpl
    · intro ws' hws'
      simp only [s', Option.map_eq_some_iff] at hws'
      obtain ⟨ws, hw, rfl⟩ := hws'
      refine ⟨by simp [s', hcpl], fun w hwm => ?_⟩
      obtain ⟨g, hg, rfl⟩ := List.mem_map.1 hwm
      rw [List.mem_range] at hg
      exact hwpos ws hw g hg
  refine ⟨s', ⟨hvalid, rfl, ?_, by simp [s'], ?_⟩, rfl, hdimcp⟩
  · intro kvs0 p0 kv0 e1 e2 e3
    rw [hk] at e1
    cases e1
    rw [hp] at e2
    cases e2
    rw [hkv] at e3
    cases e3
    refine ⟨new, rfl, fun v => ?_⟩
    rw [List.Perm.count_eq H.union, List.count_append]
    by_cases hvi : v ∈ ins
    · have := hcnt v hvi
      omega
    · rw [List.count_eq_zero_of_not_mem hvi]
      omega
  · intro u hu
    unfold InDomain at hu ⊢
    rw [hdirs] at hu
    rw [hdirs']
    obtain ⟨u1, x, u2, rfl, hul, r1, r2, r3⟩ := forall₂_split hu
    have hx : knotSeq kv p ≤ x ∧ x ≤ knotSeq kv (kv.length - p - 1) := r2
    refine ⟨forall₂_join r1 ⟨by change knotSeq new p ≤ x; rw [hnewfirst]; exact hx.1, by change x ≤ knotSeq new _; rw [hnewlast]; exact hx.2⟩ r3, fun k => ?_⟩
    let B1 : List (ℕ → K) := List.zipWith (fun d x j => Direction.basis d x j) D1 u1
    let B2 : List (ℕ → K) := List.zipWith (fun d x j => Direction.basis d x j) D2 u2
    have hbv : basisValues s (u1 ++ x :: u2) = B1 ++ (fun j => basisC (knotSeq kv) (kv.length - p - 1) p j x) :: B2 := by
      unfold basisValues
      rw [hdirs, List.zipWith_append hul.symm]
      rfl
    have hbv' : basisValues s' (u1 ++ x :: u2) = B1 ++ (fun j => basisC (knotSeq new) (new.length - p - 1) p j x) :: B2 := by
      unfold basisValues
      rw [hdirs', List.zipWith_append hul.symm]
      rfl
    have hB1 : B1.length = l1.length := by simp [B1, l1, hul]
    have key : ∀ F : ℕ → K, tensorEval (basisValues s' (u1 ++ x :: u2)) (netSize s') ((List.range N').map (R F)) =
        tensorEval (basisValues s (u1 ++ x :: u2)) (netSize s) ((List.range (netSize s).prod).map F) := by
      intro F
      rw [tensorEval_eq_sum, tensorEval_eq_sum, hbv, hbv', hnet, hnet']
      have e1 : ∀ g ∈ range (l1 ++ (kv.length - p - 1) :: l2).prod, basisProduct (B1 ++ (fun j => basisC (knotSeq kv) (kv.length - p - 1) p j x) :: B2)
          (digits (l1 ++ (kv.length - p - 1) :: l2) g) * ((List.range (l1 ++ (kv.length - p - 1) :: l2).prod).map F).getD g 0 =
          basisProduct (B1 ++ (fun j => basisC (knotSeq kv) (kv.length - p - 1) p j x) :: B2) (digits (l1 ++ (kv.length - p - 1) :: l2) g) * F g := by
        intro g hg
        rw [mem_range] at hg
        rw [List.getD_eq_getElem _ _ (by simpa using hg), List.getElem_map, List.getElem_range]
      rw [Finset.sum_congr rfl e1, tensor_refine B1 B2 _ (fun j => basisC (knotSeq new) (new.length - p - 1) p j x) l1 l2 _ (new.length - p - 1) M hB1 (hbas x hx.1 hx.2)]
      refine Finset.sum_congr rfl fun g hg => ?_
      rw [mem_range] at hg
      rw [List.getD_eq_getElem _ _ (by simpa [N'] using hg), List.getElem_map, List.getElem_range]
    have hrow : ∀ i, dim ≤ k → (s.controlPoints.getD i []).getD k 0 = 0 := by
      intro i hk
      rcases Nat.lt_or_ge i s.controlPoints.length with hi | hi
      · rw [List.getD_eq_getElem s.controlPoints _ hi, List.getD_eq_default _ _ (by rw [hdim _ (List.getElem_mem hi)]; exact hk)]
      · rw [List.getD_eq_default s.controlPoints _ hi]; rfl
    unfold point value
    cases hw : s.weights with
    | none =>
      have hsw : s'.weights = none := by simp [s', hw]
      have hsc : s'.controlPoints = (List.range N').map fun g => (List.range dim).map fun k => R (fun i => (s.controlPoints.getD i []).getD k 0) g := by
        simp only [s', cps, hw]
      simp only [hsw]
      rw [← key, hsc]
      have hNN : (netSize s').prod = N' := by rw [hnet']
      rw [hNN]
      congr 1
      refine List.map_congr_left fun g hg => ?_
      rw [List.mem_range] at hg
      rw [List.getD_eq_getElem (List.map _ (List.range N')) _ (by simpa using hg), List.getElem_map, List.getElem_range]
      rcases Nat.lt_or_ge k dim with hk | hk
      · rw [List.getD_eq_getElem _ _ (by simpa using hk), List.getElem_map, List.getElem_range]
      · rw [List.getD_eq_default _ _ (by simpa using hk)]
        simp only [R, refineNet, hrow _ hk, mul_zero, Finset.sum_const_zero]
    | some ws =>
      have hsw : s'.weights = some ((List.range N').map fun g => R (fun i => ws.getD i 0) g) := by simp [s', hw]
      have hsc : s'.controlPoints = (List.range N').map fun g => (List.range dim).map fun k =>
          R (fun i => ws.getD i 0 * (s.controlPoints.getD i []).getD k 0) g / R (fun i => ws.getD i 0) g := by
        simp only [s', cps, hw]
      obtain ⟨hwl, hwp⟩ := hs.weights ws hw
      simp only [hsw]
      have hNN : (netSize s').prod = N' := by rw [hnet']
      rw [hNN]
      congr 1
      · rw [← key, hsc]
        congr 1
        refine List.map_congr_left fun g hg => ?_
        rw [List.mem_range] at hg
        rw [List.getD_eq_getElem (List.map _ (List.range N')) _ (by simpa using hg), List.getElem_map, List.getElem_range,
          List.getD_eq_getElem (List.map (fun g => (List.range dim).map _) (List.range N')) _ (by simpa using hg), List.getElem_map, List.getElem_range]
        rcases Nat.lt_or_ge k dim with hk | hk
        · rw [List.getD_eq_getElem _ _ (by simpa using hk), List.getElem_map, List.getElem_range, mul_div_cancel₀ _ (hwpos ws hw g hg).ne']
        · rw [List.getD_eq_default _ _ (by simpa using hk)]
          simp only [R, refineNet, hrow _ hk, mul_zero, Finset.sum_const_zero]
      · rw [key]
        congr 1
        apply List.ext_getElem
        · rw [List.length_map, List.length_range, hwl, hs.net]
        · intro i h1 h2
          rw [List.getElem_map, List.getElem_range, List.getD_eq_getElem _ _ h2]

end Splinepy.InsertSpline
