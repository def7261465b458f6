import Verif.Props.Index
import Verif.Props.GlobalInsertion
import Verif.Lemma.Spline
import Mathlib.Data.List.GetD
import Mathlib.Data.List.Count

/-! Slices of a control net along one axis, and of a sorted knot vector. -/
namespace Splinepy.Slice
open Splinepy.Spec Splinepy.Index Splinepy.Blossom Finset
open Splinepy.KnotInsertion (flat_split digits_split sum_range_split basisProduct_split)

theorem map_range_digits (rs : List ℕ) (k : ℕ) (h : k < rs.prod) :
    List.zipWith (fun (l : List ℕ) i => l[i]?) (rs.map List.range) (digits rs k) = (digits rs k).map some := by
  induction rs generalizing k with
  | nil => rfl
  | cons r rs ih =>
    rw [List.prod_cons] at h
    have hr : 0 < r := by
      rcases Nat.eq_zero_or_pos r with h0 | h0
      · subst h0; simp at h
      · exact h0
    simp only [List.map_cons, digits, List.zipWith_cons_cons]
    rw [ih _ (Nat.div_lt_of_lt_mul h), List.getElem?_range (Nat.mod_lt _ hr)]

theorem map_length_range (rs : List ℕ) : (rs.map List.range).map List.length = rs := by
  rw [List.map_map]
  conv_rhs => rw [← List.map_id rs]
  apply List.map_congr_left
  intro r _
  simp

/-- ids of the control points whose coordinate along one axis is in the list `S` -/
theorem multiIndex_axis (l1 l2 : List ℕ) (n : ℕ) (S : List ℕ) (hS : ∀ i ∈ S, i < n) :
    ∃ ids, multiIndexGet (l1 ++ n :: l2) (l1.map List.range ++ S :: l2.map List.range) = some ids ∧
      ids.length = (l1 ++ S.length :: l2).prod ∧ (∀ g ∈ ids, g < (l1 ++ n :: l2).prod) ∧ ∀ a < l1.prod, ∀ i < S.length, ∀ c < l2.prod,
        ids.getD (a + l1.prod * (i + S.length * c)) 0 = a + l1.prod * (S.getD i 0 + n * c) := by
  have hv : Index.Spec.ValidSel (l1 ++ n :: l2) (l1.map List.range ++ S :: l2.map List.range) := by
    unfold Index.Spec.ValidSel
    have hr : ∀ rs : List ℕ, List.Forall₂ (fun (s : List ℕ) r => ∀ i ∈ s, i < r) (rs.map List.range) rs := by
      intro rs
      rw [List.forall₂_map_left_iff, List.forall₂_same]
      intro r _ i hi
      exact List.mem_range.1 hi
    exact List.rel_append (hr l1) (.cons hS (hr l2))
  have hlen : (l1.map List.range ++ S :: l2.map List.range).map List.length = l1 ++ S.length :: l2 := by
    rw [List.map_append, List.map_cons, map_length_range, map_length_range]
  have hrows := digits_rows (l1.map List.range ++ S :: l2.map List.range)
  rw [hlen] at hrows
  have hl : (firstFastest (l1.map List.range ++ S :: l2.map List.range)).length = (l1 ++ S.length :: l2).prod := by
    have := congrArg List.length hrows
    simpa using this.symm
  refine ⟨_, multi_index_get _ _ hv, by rw [List.length_map, hl], ?_, ?_⟩
  · intro g hg
    obtain ⟨x, hx, rfl⟩ := List.mem_map.1 hg
    apply flat_lt
    rw [mem_firstFastest] at hx
    unfold Index.Spec.ValidSel at hv
    unfold InGrid
    rw [List.forall₂_iff_get] at hx hv ⊢
    refine ⟨by omega, fun i h1 h2 => ?_⟩
    exact hv.2 i (by omega) h1 _ (hx.2 i (by omega) h2)
  intro a ha i hi c hc
  have hk : a + l1.prod * (i + S.length * c) < (l1 ++ S.length :: l2).prod := by
    rw [List.prod_append, List.prod_cons]
    have h1 : i + S.length * c < S.length * l2.prod := by nlinarith
    nlinarith
  have hr := congrArg (fun l => l[a + l1.prod * (i + S.length * c)]?) hrows
  simp only [List.getElem?_map, List.getElem?_range hk, Option.map_some] at hr
  rw [List.getElem?_eq_getElem (by rw [hl]; exact hk)] at hr
  simp only [Option.map_some, Option.some.injEq] at hr
  rw [digits_split l1 l2 S.length a i c ha hi, List.zipWith_append (by simp [digits_length]), map_range_digits _ _ ha,
    List.zipWith_cons_cons, map_range_digits _ _ hc, List.getElem?_eq_getElem hi, ← List.map_cons (f := some), ← List.map_append] at hr
  have he := List.map_injective_iff.2 (Option.some_injective _) hr
  rw [List.getD_eq_getElem _ _ (by rw [List.length_map, hl]; exact hk), List.getElem_map, ← he,
    flat_split _ _ _ _ _ _ (by rw [digits_length]), flat_digits _ _ ha, flat_digits _ _ hc, List.getD_eq_getElem S _ hi]

set_option linter.unusedSectionVars false
variable {K : Type} [Field K] [LinearOrder K] [IsStrictOrderedRing K]

/-- a tensor sum whose basis functions along one axis vanish outside of a window is the sum over the window -/
theorem sum_window (B1 B2 : List (ℕ → K)) (b b' : ℕ → K) (l1 l2 : List ℕ) (n st len : ℕ) (h1 : B1.length = l1.length) (hn : st + len ≤ n)
    (hb : ∀ j < len, b' j = b (st + j)) (hz : ∀ j < n, j < st ∨ st + len ≤ j → b j = 0) (F F' : ℕ → K)
    (hF : ∀ a < l1.prod, ∀ i < len, ∀ c < l2.prod, F' (a + l1.prod * (i + len * c)) = F (a + l1.prod * (st + i + n * c))) :
    ∑ g ∈ range (l1 ++ len :: l2).prod, basisProduct (B1 ++ b' :: B2) (digits (l1 ++ len :: l2) g) * F' g =
      ∑ g ∈ range (l1 ++ n :: l2).prod, basisProduct (B1 ++ b :: B2) (digits (l1 ++ n :: l2) g) * F g := by
  rw [sum_range_split, sum_range_split]
  apply sum_congr rfl
  intro c hc
  rw [mem_range] at hc
  obtain ⟨m, rfl⟩ : ∃ m, n = st + (len + m) := ⟨n - st - len, by omega⟩
  rw [sum_range_add (fun i => ∑ a ∈ range l1.prod, _) st, sum_range_add (fun i => ∑ a ∈ range l1.prod, _) len]
  have z : ∀ j < st + (len + m), j < st ∨ st + len ≤ j → ∑ a ∈ range l1.prod,
      basisProduct (B1 ++ b :: B2) (digits (l1 ++ (st + (len + m)) :: l2) (a + l1.prod * (j + (st + (len + m)) * c))) *
        F (a + l1.prod * (j + (st + (len + m)) * c)) = 0 := by
    intro j hj hj2
    apply sum_eq_zero
    intro a ha
    rw [mem_range] at ha
    rw [digits_split _ _ _ _ _ _ ha hj, basisProduct_split _ _ _ _ _ _ (by rw [digits_length]; exact h1), hz j hj hj2]
    ring
  rw [sum_eq_zero (fun j hj => z j (by have := mem_range.1 hj; omega) (by left; exact mem_range.1 hj)), zero_add,
    sum_eq_zero (s := range m) (fun j hj => z (st + (len + j)) (by have := mem_range.1 hj; omega) (by right; omega)), add_zero]
  apply sum_congr rfl
  intro i hi
  apply sum_congr rfl
  intro a ha
  rw [mem_range] at hi ha
  rw [digits_split _ _ _ _ _ _ ha hi, digits_split _ _ _ _ _ _ ha (by omega), basisProduct_split _ _ _ _ _ _ (by rw [digits_length]; exact h1),
    basisProduct_split _ _ _ _ _ _ (by rw [digits_length]; exact h1), hb i hi, hF a ha i hi c hc]

theorem digits_pair (l1 l2 : List ℕ) (a c : ℕ) (ha : a < l1.prod) : digits (l1 ++ l2) (a + l1.prod * c) = digits l1 a ++ digits l2 c := by
  have h := digits_split l1 l2 1 a 0 c ha (by omega)
  clear h
  induction l1 generalizing a with
  | nil =>
    simp only [List.prod_nil] at ha
    have : a = 0 := by omega
    subst this
    simp [digits]
  | cons r rs ih =>
    rw [List.prod_cons] at ha ⊢
    have hr : 0 < r := by
      rcases Nat.eq_zero_or_pos r with h | h
      · subst h; simp at ha
      · exact h
    rw [List.cons_append]
    simp only [digits]
    rw [Nat.mul_assoc, Nat.add_mul_mod_self_left, Nat.add_mul_div_left _ _ hr, ih (a / r) (Nat.div_lt_of_lt_mul ha)]
    rfl

theorem basisProduct_pair (b1 b2 : List (ℕ → K)) (c1 c2 : List ℕ) (h : b1.length = c1.length) :
    basisProduct (b1 ++ b2) (c1 ++ c2) = basisProduct b1 c1 * basisProduct b2 c2 := by
  unfold basisProduct
  rw [List.zipWith_append h, List.prod_append]

/-- a tensor sum with only one basis function along one axis is the sum over the remaining axes -/
theorem sum_drop (B1 B2 : List (ℕ → K)) (b : ℕ → K) (l1 l2 : List ℕ) (n st : ℕ) (h1 : B1.length = l1.length) (hn : st < n)
    (hb : b st = 1) (hz : ∀ j < n, j ≠ st → b j = 0) (F F' : ℕ → K)
    (hF : ∀ a < l1.prod, ∀ c < l2.prod, F' (a + l1.prod * c) = F (a + l1.prod * (st + n * c))) :
    ∑ g ∈ range (l1 ++ l2).prod, basisProduct (B1 ++ B2) (digits (l1 ++ l2) g) * F' g =
      ∑ g ∈ range (l1 ++ n :: l2).prod, basisProduct (B1 ++ b :: B2) (digits (l1 ++ n :: l2) g) * F g := by
  rw [sum_range_split, List.prod_append, KnotInsertion.sum_range_mul]
  apply sum_congr rfl
  intro c hc
  rw [mem_range] at hc
  symm
  rw [sum_eq_single st]
  · symm
    apply sum_congr rfl
    intro a ha
    rw [mem_range] at ha
    rw [digits_split _ _ _ _ _ _ ha hn, basisProduct_split _ _ _ _ _ _ (by rw [digits_length]; exact h1), hb, hF a ha c hc, digits_pair _ _ _ _ ha,
      basisProduct_pair _ _ _ _ (by rw [digits_length]; exact h1), one_mul]
  · intro j hj hne
    rw [mem_range] at hj
    apply sum_eq_zero
    intro a ha
    rw [mem_range] at ha
    rw [digits_split _ _ _ _ _ _ ha hj, basisProduct_split _ _ _ _ _ _ (by rw [digits_length]; exact h1), hz j hj hne]
    ring
  · intro h; exact absurd (mem_range.2 hn) h

/-! ### basis functions on a slice of the knots -/

theorem basisC_support {t : ℕ → K} (ht : Monotone t) (n d j : ℕ) (x : K) (h : basisC t n d j x ≠ 0) :
    t j ≤ x ∧ x ≤ t (j + d + 1) ∧ (x ≠ t n → x < t (j + d + 1)) := by
  induction d generalizing j with
  | zero =>
    simp only [basisC] at h
    split at h
    · rename_i hc
      rcases hc with ⟨h1, h2, h3⟩ | ⟨h1, h2, h3⟩
      · exact ⟨h2, h3.le, fun _ => h3⟩
      · exact ⟨h2.le, h3.le, fun hne => absurd h1 hne⟩
    · exact absurd rfl h
  | succ d ih =>
    simp only [basisC] at h
    by_cases h1 : basisC t n d j x = 0
    · have h2 : basisC t n d (j + 1) x ≠ 0 := by
        intro h2; rw [h1, h2] at h; simp at h
      obtain ⟨a, b, c⟩ := ih _ h2
      rw [show j + 1 + d + 1 = j + (d + 1) + 1 by omega] at b c
      exact ⟨le_trans (ht (by omega)) a, b, c⟩
    · obtain ⟨a, b, c⟩ := ih _ h1
      have := ht (show j + d + 1 ≤ j + (d + 1) + 1 by omega)
      exact ⟨a, le_trans b this, fun hne => lt_of_lt_of_le (c hne) this⟩

/-- a basis function only depends on its own knots and on whether the parameter is the end of the domain -/
theorem basisC_shift {t t' : ℕ → K} (n n' st : ℕ) (x : K) (hn : x = t' n' ↔ x = t n) (d j : ℕ) (h : ∀ i, j ≤ i → i ≤ j + d + 1 → t' i = t (st + i)) :
    basisC t' n' d j x = basisC t n d (st + j) x := by
  induction d generalizing j with
  | zero =>
    simp only [basisC, ne_eq, hn]
    rw [h j le_rfl (by omega), h (j + 1) (by omega) (by omega)]
    rfl
  | succ d ih =>
    simp only [basisC]
    rw [ih j (fun i h1 h2 => h i h1 (by omega)), ih (j + 1) (fun i h1 h2 => h i (by omega) (by omega)), h j (by omega) (by omega),
      h (j + d + 1) (by omega) (by omega), h (j + d + 2) (by omega) (by omega), h (j + 1) (by omega) (by omega)]
    simp only [← Nat.add_assoc]

/-- at a knot that is repeated once more than the degree, one basis function is one and all others vanish -/
theorem basisC_at_knot {t : ℕ → K} (ht : Monotone t) {n p st : ℕ} {a : K} (ha : ∀ i, st ≤ i → i ≤ st + p → t i = a) (h1 : a < t (st + p + 1)) (hn : a < t n)
    (j : ℕ) : basisC t n p j a = if j = st then 1 else 0 := by
  rw [basisC_eq_basis hn.ne, basis_eq_bl ht (μ := st + p) ⟨(ha _ (by omega) le_rfl).le, h1⟩,
    bl_const_right (m := p) h1 (fun k _ hk => ha _ (by omega) (by omega)) p le_rfl]
  by_cases h : j = st <;> simp [h]

/-- the same at the end of the domain -/
theorem basisC_at_end {t : ℕ → K} (ht : Monotone t) {n p : ℕ} {a : K} (hpn : t p < t n) (ha : ∀ i, n ≤ i → i < n + p → t i = a) (hn : t n = a)
    (h1 : t (n - 1) < a) (j : ℕ) : basisC t n p j a = if j = n - 1 then 1 else 0 := by
  obtain ⟨μ, -, hμn, hμ, h2, h3, e⟩ := basisC_span ht hpn (show t p ≤ a by rw [← hn]; exact hpn.le) hn.ge
  have hμ' : μ = n - 1 := by
    by_contra hne
    exact absurd (lt_of_le_of_lt h3 (lt_of_le_of_lt (ht (show μ + 1 ≤ n - 1 by omega)) h1)) (lt_irrefl _)
  rw [e, hμ', bl_const_left (m := p) h1 (fun k hk1 hk => by
    rw [show n - 1 + k = n + (k - 1) by omega]; exact ha _ (by omega) (by omega)) p le_rfl]

/-! ### sorted lists -/

/-- a sorted list consists of the smaller elements, the copies of `a` and the larger elements -/
theorem sorted_split {l : List K} (h : l.Pairwise (· ≤ ·)) (a : K) :
    l = l.filter (· < a) ++ List.replicate (l.count a) a ++ l.filter (a < ·) := by
  induction l with
  | nil => simp
  | cons x l ih =>
    rw [List.pairwise_cons] at h
    have := ih h.2
    rcases lt_trichotomy x a with hx | hx | hx
    · rw [List.filter_cons_of_pos (by simpa using hx), List.count_cons_of_ne hx.ne, List.filter_cons_of_neg (by simpa using hx.le),
        List.cons_append, List.cons_append, ← this]
    · subst hx
      have he : l.filter (· < x) = [] := by
        rw [List.filter_eq_nil_iff]
        intro y hy
        simpa using h.1 y hy
      rw [List.filter_cons_of_neg (by simp), List.filter_cons_of_neg (by simp), List.count_cons_self, he, List.replicate_succ]
      rw [he] at this
      simp only [List.nil_append, List.cons_append] at this ⊢
      rw [← this]
    · have he : l.filter (· < a) = [] := by
        rw [List.filter_eq_nil_iff]
        intro y hy
        simpa using (hx.le.trans (h.1 y hy))
      have hc : l.count a = 0 := by
        rw [List.count_eq_zero]
        intro hm
        exact absurd (h.1 a hm) (not_le.2 hx)
      have hf : l.filter (a < ·) = l := by
        rw [List.filter_eq_self]
        intro y hy
        simpa using lt_of_lt_of_le hx (h.1 y hy)
      rw [List.filter_cons_of_neg (by simpa using hx.le), List.filter_cons_of_pos (by simpa using hx), List.count_cons_of_ne hx.ne', he, hc, hf]
      simp

/-- last element of a filtered range -/
theorem getLast_filter_range (P : ℕ → Bool) (n L : ℕ) (hL : L < n) (hP : P L = true) (h : ∀ i, L < i → i < n → P i = false) :
    ((List.range n).filter P).getLast? = some L := by
  obtain ⟨m, rfl⟩ : ∃ m, n = (L + 1) + m := ⟨n - L - 1, by omega⟩
  rw [List.range_add, List.filter_append, List.range_succ, List.filter_append]
  have h0 : ((List.range m).map fun x => L + 1 + x).filter P = [] := by
    rw [List.filter_eq_nil_iff]
    intro x hx
    obtain ⟨y, hy, rfl⟩ := List.mem_map.1 hx
    rw [h _ (by omega) (by have := List.mem_range.1 hy; omega)]
    simp
  rw [h0, List.append_nil]
  simp [hP]

end Splinepy.Slice
