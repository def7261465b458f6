import Verif.Lemma.GrevilleNodes
import Mathlib.Analysis.Calculus.Deriv.Polynomial

/-!
Products of derivatives of B-splines in several directions are tensor product splines (for C88).
-/
namespace Splinepy.DetSpline
open Splinepy.Spec Finset Splinepy.CurrySchoenberg

set_option linter.unusedSectionVars false

/-! ### one direction -/

/-- A clamped knot vector of degree `p` as repeated values; the inner values occur less than `p` times. -/
structure Grid1 (p : ℕ) (kv : List ℝ) (L : ℕ) (x : ℕ → ℝ) (m : ℕ → ℕ) : Prop where
  pos : 0 < L
  lt : ∀ i < L, x i < x (i + 1)
  one : ∀ i ≤ L, 1 ≤ m i
  first : m 0 = p + 1
  last : m L = p + 1
  inner : ∀ i, 0 < i → i < L → m i + 1 ≤ p
  eq : kv = rep x m (L + 1)

namespace Grid1
variable {p : ℕ} {kv : List ℝ} {L : ℕ} {x : ℕ → ℝ} {m : ℕ → ℕ}

theorem size (H : Grid1 p kv L x m) : kv.length - p - 1 = off m L := by rw [H.eq, rep_length, off_succ, H.last]; omega

theorem lower (H : Grid1 p kv L x m) : knotSeq kv p = x 0 := by
  rw [H.eq]
  refine rep_knot x m (by omega) (by simp [off]) ?_
  rw [off_succ, H.first]
  omega

theorem upper (H : Grid1 p kv L x m) : knotSeq kv (kv.length - p - 1) = x L := by
  rw [H.size, H.eq]
  refine rep_knot x m (by omega) (le_refl _) ?_
  rw [off_succ, H.last]
  omega

theorem piece_within (H : Grid1 p kv L x m) (j i : ℕ) (u : ℝ) (hu : OnPiece L x i u) :
    HasDerivWithinAt (fun y => basisC (knotSeq kv) (kv.length - p - 1) p j y) (dbasis x m L p j u) {v | OnPiece L x i v} u := by
  rw [dbasis_piece H.lt j i u hu]
  have hk := H.eq
  subst hk
  have h := ((CurrySchoenberg.piece (knotSeq (rep x m (L + 1))) p (off m (i + 1) - 1) j).hasDerivAt u).hasDerivWithinAt (s := {v | OnPiece L x i v})
  exact h.congr (fun v hv => basisC_piece H.lt H.one H.first H.last j i v hv) (basisC_piece H.lt H.one H.first H.last j i u hu)

theorem piece_unique (H : Grid1 p kv L x m) (i : ℕ) (u : ℝ) (hu : OnPiece L x i u) : UniqueDiffWithinAt ℝ {v | OnPiece L x i v} u := by
  by_cases h : i + 1 = L
  · have e : {v | OnPiece L x i v} = Set.Icc (x i) (x (i + 1)) := by
      ext v
      simp only [Set.mem_ofPred_eq, Set.mem_Icc, OnPiece]
      constructor
      · rintro ⟨-, h2, h3⟩
        refine ⟨h2, ?_⟩
        rcases h3 with h3 | ⟨h3, h4⟩
        · exact h3.le
        · rw [h3, h4]
      · rintro ⟨h2, h3⟩
        refine ⟨by omega, h2, ?_⟩
        rcases lt_or_eq_of_le h3 with h4 | h4
        · exact Or.inl h4
        · exact Or.inr ⟨h, by rw [h4, h]⟩
    rw [e]
    exact uniqueDiffOn_Icc (H.lt i (by omega)) u (by rw [← e]; exact hu)
  · have e : {v | OnPiece L x i v} = Set.Ico (x i) (x (i + 1)) := by
      ext v
      simp only [Set.mem_ofPred_eq, Set.mem_Ico, OnPiece]
      constructor
      · rintro ⟨-, h2, h3⟩
        rcases h3 with h3 | ⟨h3, -⟩
        · exact ⟨h2, h3⟩
        · exact absurd h3 h
      · rintro ⟨h2, h3⟩
        exact ⟨hu.1, h2, Or.inl h3⟩
    rw [e]
    exact uniqueDiffOn_Ico _ _ u (by rw [← e]; exact hu)

theorem piece_subset (H : Grid1 p kv L x m) (i : ℕ) (v : ℝ) (hv : OnPiece L x i v) : x 0 ≤ v ∧ v ≤ x L := by
  obtain ⟨h1, h2, h3⟩ := hv
  refine ⟨le_trans (x_mono H.lt (Nat.zero_le i) h1.le) h2, ?_⟩
  rcases h3 with h3 | ⟨-, h3⟩
  · exact le_trans h3.le (x_mono H.lt h1 (le_refl _))
  · exact h3.le

/-- the basis functions are differentiable on the closed domain -/
theorem domain_within (H : Grid1 p kv L x m) (j : ℕ) (u : ℝ) (h0 : x 0 ≤ u) (h1 : u ≤ x L) :
    HasDerivWithinAt (fun y => basisC (knotSeq kv) (kv.length - p - 1) p j y) (dbasis x m L p j u) (Set.Icc (x 0) (x L)) u := by
  obtain ⟨i, hi⟩ := onPiece_exists H.pos h0 h1
  have hw := H.piece_within j i u hi
  -- from the right
  have hright : HasDerivWithinAt (fun y => basisC (knotSeq kv) (kv.length - p - 1) p j y) (dbasis x m L p j u) (Set.Icc u (x L)) u := by
    rcases hi.2.2 with h | ⟨h, h'⟩
    · refine hw.mono_of_mem_nhdsWithin ?_
      rw [mem_nhdsWithin]
      exact ⟨Set.Iio (x (i + 1)), isOpen_Iio, h, fun v hv => ⟨hi.1, le_trans hi.2.1 hv.2.1, Or.inl hv.1⟩⟩
    · refine hw.mono fun v hv => ?_
      have : v = u := le_antisymm (by rw [h']; exact hv.2) hv.1
      rw [this]
      exact hi
  have hleft : HasDerivWithinAt (fun y => basisC (knotSeq kv) (kv.length - p - 1) p j y) (dbasis x m L p j u) (Set.Icc (x 0) u) u := by
    rcases lt_or_eq_of_le hi.2.1 with h | h
    · refine hw.mono_of_mem_nhdsWithin ?_
      rw [mem_nhdsWithin]
      refine ⟨Set.Ioi (x i), isOpen_Ioi, h, fun v hv => ⟨hi.1, le_of_lt hv.1, ?_⟩⟩
      rcases hi.2.2 with g | ⟨g, g'⟩
      · exact Or.inl (lt_of_le_of_lt hv.2.2 g)
      · rcases lt_or_eq_of_le hv.2.2 with h2 | h2
        · left; rw [g, ← g']; exact h2
        · exact Or.inr ⟨g, by rw [h2, g']⟩
    · rcases Nat.eq_zero_or_pos i with hz | hz
      · subst hz
        refine hw.mono fun v hv => ?_
        have : v = u := le_antisymm hv.2 (by rw [← h]; exact hv.1)
        rw [this]
        exact hi
      · obtain ⟨k, rfl⟩ : ∃ k, i = k + 1 := ⟨i - 1, by omega⟩
        have hk := hi.1
        have hj := piece_jump (rep_spans (D := p) H.lt H.one H.first) (fun i hi => H.one _ (by omega)) k hk j
        have hin := H.inner (k + 1) (by omega) hk
        have hsq : (Polynomial.X - Polynomial.C u) ^ 2 ∣ CurrySchoenberg.piece (knotSeq (rep x m (L + 1))) p (off m (k + 1 + 1) - 1) j -
            CurrySchoenberg.piece (knotSeq (rep x m (L + 1))) p (off m (k + 1) - 1) j := by
          rw [h] at hj
          exact (pow_dvd_pow _ (by omega)).trans hj
        have hv0 : (CurrySchoenberg.piece (knotSeq (rep x m (L + 1))) p (off m (k + 1 + 1) - 1) j).eval u = (CurrySchoenberg.piece (knotSeq (rep x m (L + 1))) p (off m (k + 1) - 1) j).eval u := by
          rw [← sub_eq_zero, ← Polynomial.eval_sub]
          obtain ⟨q, hq⟩ := hsq
          rw [hq]
          simp
        have hd0 : (Polynomial.derivative (CurrySchoenberg.piece (knotSeq (rep x m (L + 1))) p (off m (k + 1 + 1) - 1) j)).eval u =
            (Polynomial.derivative (CurrySchoenberg.piece (knotSeq (rep x m (L + 1))) p (off m (k + 1) - 1) j)).eval u := by
          rw [← sub_eq_zero, ← Polynomial.eval_sub, ← Polynomial.derivative_sub]
          obtain ⟨q, hq⟩ := hsq
          rw [hq]
          simp [Polynomial.derivative_mul, Polynomial.derivative_pow]
        rw [dbasis_piece H.lt j (k + 1) u hi, hd0]
        have hd := ((CurrySchoenberg.piece (knotSeq (rep x m (L + 1))) p (off m (k + 1) - 1) j).hasDerivAt u).hasDerivWithinAt (s := Set.Icc (x 0) u)
        refine hd.congr_of_eventuallyEq ?_ ?_
        · refine Filter.eventually_iff_exists_mem.2 ⟨Set.Icc (x k) u, ?_, fun v hv => ?_⟩
          · rw [mem_nhdsWithin]
            exact ⟨Set.Ioi (x k), isOpen_Ioi, by rw [← h]; exact H.lt k (by omega), fun v hv => ⟨le_of_lt hv.1, hv.2.2⟩⟩
          · rcases lt_or_eq_of_le hv.2 with hlt | heq
            · have := basisC_piece H.lt H.one H.first H.last j k v ⟨by omega, hv.1, Or.inl (by rw [h]; exact hlt)⟩
              rw [H.eq]
              exact this
            · rw [heq]
              simp only
              rw [← hv0]
              have := basisC_piece H.lt H.one H.first H.last j (k + 1) u hi
              rw [H.eq]
              exact this
        · rw [← hv0]
          have := basisC_piece H.lt H.one H.first H.last j (k + 1) u hi
          rw [H.eq]
          exact this
  have := hleft.union hright
  rwa [Set.Icc_union_Icc_eq_Icc h0 h1] at this

end Grid1

/-! ### several directions -/

theorem basisProduct_ofFn {n : ℕ} (b : Fin n → ℕ → ℝ) (cs : List ℕ) (hcs : cs.length = n) : basisProduct (List.ofFn b) cs = ∏ l, b l (cs.getD l 0) := by
  rw [basisProduct, ← List.prod_ofFn]
  congr 1
  apply List.ext_getElem
  · simp [hcs]
  · intro i h1 h2
    simp only [List.length_zipWith, List.length_ofFn, hcs, Nat.min_self] at h1
    simp only [List.getElem_zipWith, List.getElem_ofFn]
    rw [List.getD_eq_getElem cs 0 (by simpa [hcs] using h1)]

/-- value of basis function `j` in direction `l` -/
noncomputable def nb (ds : List ℕ) (kvs : List (List ℝ)) (l j : ℕ) (y : ℝ) : ℝ :=
  basisC (knotSeq (kvs.getD l [])) ((kvs.getD l []).length - ds.getD l 0 - 1) (ds.getD l 0) j y

/-- number of basis functions in direction `l` -/
def nsize (ds : List ℕ) (kvs : List (List ℝ)) (l : ℕ) : ℕ := (kvs.getD l []).length - ds.getD l 0 - 1

theorem basisValues_ofFn {n : ℕ} (s : Index.Spline ℝ (List ℝ)) (kvs : List (List ℝ)) (hk : s.knotVectors = some kvs) (h1 : s.degrees.length = n) (h2 : kvs.length = n) (u : List ℝ)
    (hu : u.length = n) : basisValues s u = List.ofFn fun l : Fin n => fun j => nb s.degrees kvs l j (u.getD l 0) := by
  unfold basisValues directions
  rw [hk]
  apply List.ext_getElem
  · simp [h1, h2, hu]
  · intro i g1 g2
    have hi : i < n := by simpa using g2
    simp only [List.getElem_zipWith, List.getElem_ofFn]
    funext j
    simp only [Direction.basis, nb]
    rw [List.getD_eq_getElem kvs _ (by omega), List.getD_eq_getElem s.degrees _ (by omega), List.getD_eq_getElem u _ (by omega)]

theorem netSize_ofFn {n : ℕ} (s : Index.Spline ℝ (List ℝ)) (kvs : List (List ℝ)) (hk : s.knotVectors = some kvs) (h1 : s.degrees.length = n) (h2 : kvs.length = n) :
    netSize s = List.ofFn fun l : Fin n => nsize s.degrees kvs l := by
  unfold netSize directions
  rw [hk]
  apply List.ext_getElem
  · simp [h1, h2]
  · intro i g1 g2
    have hi : i < n := by simpa using g2
    simp only [List.getElem_map, List.getElem_zipWith, List.getElem_ofFn, Direction.size, nsize]
    rw [List.getD_eq_getElem kvs _ (by omega), List.getD_eq_getElem s.degrees _ (by omega)]

theorem inDomain_iff {n : ℕ} (s : Index.Spline ℝ (List ℝ)) (kvs : List (List ℝ)) (hk : s.knotVectors = some kvs) (h1 : s.degrees.length = n) (h2 : kvs.length = n) (u : List ℝ) :
    InDomain s u ↔ u.length = n ∧ ∀ l : Fin n, knotSeq (kvs.getD l []) (s.degrees.getD l 0) ≤ u.getD l 0 ∧ u.getD l 0 ≤ knotSeq (kvs.getD l []) (nsize s.degrees kvs l) := by
  unfold InDomain directions
  rw [hk, List.forall₂_iff_get]
  simp only [List.length_zipWith, h1, h2, Nat.min_self, List.get_eq_getElem, List.getElem_zipWith]
  constructor
  · rintro ⟨g1, g2⟩
    refine ⟨g1.symm, fun l => ?_⟩
    have := g2 l l.2 (by omega)
    simp only [Direction.Contains, Direction.lower, Direction.upper] at this
    rw [List.getD_eq_getElem kvs _ (by omega), List.getD_eq_getElem s.degrees _ (by omega), List.getD_eq_getElem u _ (by omega), nsize, List.getD_eq_getElem kvs _ (by omega),
      List.getD_eq_getElem s.degrees _ (by omega)]
    exact this
  · rintro ⟨g1, g2⟩
    refine ⟨g1.symm, fun l hl hl' => ?_⟩
    have := g2 ⟨l, hl⟩
    simp only [Direction.Contains, Direction.lower, Direction.upper]
    rw [List.getD_eq_getElem kvs _ (by omega), List.getD_eq_getElem s.degrees _ (by omega), List.getD_eq_getElem u _ (by omega), nsize, List.getD_eq_getElem kvs _ (by omega),
      List.getD_eq_getElem s.degrees _ (by omega)] at this
    exact this

/-- `F` is a tensor product spline with the degrees `ds` and knots `kvs` on their domain. -/
def Tens (n : ℕ) (ds : List ℕ) (kvs : List (List ℝ)) (F : List ℝ → ℝ) : Prop :=
  ∃ c : ℕ → ℝ, ∀ u : List ℝ, u.length = n → (∀ l : Fin n, knotSeq (kvs.getD l []) (ds.getD l 0) ≤ u.getD l 0 ∧ u.getD l 0 ≤ knotSeq (kvs.getD l []) (nsize ds kvs l)) →
    F u = ∑ g ∈ range (List.ofFn fun l : Fin n => nsize ds kvs l).prod, (∏ l : Fin n, nb ds kvs l ((digits (List.ofFn fun l : Fin n => nsize ds kvs l) g).getD l 0) (u.getD l 0)) * c g

namespace Tens
variable {n : ℕ} {ds : List ℕ} {kvs : List (List ℝ)}

theorem sum {ι : Type} (s : Finset ι) (F : ι → List ℝ → ℝ) (h : ∀ k ∈ s, Tens n ds kvs (F k)) : Tens n ds kvs (fun u => ∑ k ∈ s, F k u) := by
  classical
  induction s using Finset.induction_on with
  | empty => exact ⟨fun _ => 0, fun u _ _ => by simp⟩
  | insert a s ha ih =>
    obtain ⟨c, hc⟩ := h a (mem_insert_self a s)
    obtain ⟨c', hc'⟩ := ih fun k hk => h k (mem_insert_of_mem hk)
    refine ⟨fun g => c g + c' g, fun u h1 h2 => ?_⟩
    simp only [sum_insert ha]
    have e := hc' u h1 h2
    simp only at e
    rw [hc u h1 h2, e, ← sum_add_distrib]
    refine sum_congr rfl fun g _ => by ring

theorem smul (a : ℝ) {F : List ℝ → ℝ} (h : Tens n ds kvs F) : Tens n ds kvs (fun u => a * F u) := by
  obtain ⟨c, hc⟩ := h
  refine ⟨fun g => a * c g, fun u h1 h2 => ?_⟩
  simp only
  rw [hc u h1 h2, Finset.mul_sum]
  refine sum_congr rfl fun g _ => by ring

theorem prod (f : Fin n → ℝ → ℝ) (a : Fin n → ℕ → ℝ)
    (h : ∀ (l : Fin n) (y : ℝ), knotSeq (kvs.getD l []) (ds.getD l 0) ≤ y → y ≤ knotSeq (kvs.getD l []) (nsize ds kvs l) → f l y = ∑ j ∈ range (nsize ds kvs l), nb ds kvs l j y * a l j) :
    Tens n ds kvs (fun u => ∏ l : Fin n, f l (u.getD l 0)) := by
  refine ⟨fun g => ∏ l : Fin n, a l ((digits (List.ofFn fun l : Fin n => nsize ds kvs l) g).getD l 0), fun u hu h2 => ?_⟩
  have e := basisProduct_sum (List.ofFn fun l : Fin n => fun j => nb ds kvs l j (u.getD l 0) * a l j) (List.ofFn fun l : Fin n => nsize ds kvs l) (by simp)
  have e1 : (List.zipWith (fun (b : ℕ → ℝ) n => ∑ j ∈ range n, b j) (List.ofFn fun l : Fin n => fun j => nb ds kvs l j (u.getD l 0) * a l j) (List.ofFn fun l : Fin n => nsize ds kvs l)).prod =
      ∏ l : Fin n, f l (u.getD l 0) := by
    rw [← List.prod_ofFn]
    congr 1
    apply List.ext_getElem
    · simp
    · intro i g1 g2
      have hi : i < n := by simpa using g2
      simp only [List.getElem_zipWith, List.getElem_ofFn]
      exact (h ⟨i, hi⟩ _ (h2 ⟨i, hi⟩).1 (h2 ⟨i, hi⟩).2).symm
  simp only
  rw [← e1, ← e]
  refine sum_congr rfl fun g _ => ?_
  rw [basisProduct_ofFn _ _ (by rw [digits_length', List.length_ofFn]), prod_mul_distrib]

end Tens

end Splinepy.DetSpline
