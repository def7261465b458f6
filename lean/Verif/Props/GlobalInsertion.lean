import Verif.Props.KnotInsertion
import Verif.Lemma.MixedRadix
import Verif.Spec.Tensor

/-!
Properties of the merged knot vector and of the knot insertion matrix of tensor products (C03 and the multivariate part of C01).
-/
namespace Splinepy.KnotInsertion
open Splinepy.Spec
set_option linter.unusedSectionVars false

variable {K : Type} [Field K] [LinearOrder K] [IsStrictOrderedRing K]

/-! ### merging -/

theorem mergeKnots_spec (old new : List K) (ho : old.Pairwise (· ≤ ·)) (hn : new.Pairwise (· ≤ ·))
    (hle : ∀ x ∈ new, ∃ y ∈ old, x ≤ y) :
    ∃ m, mergeKnots old new = some m ∧ m.Perm (old ++ new) ∧ m.Pairwise (· ≤ ·) := by
  fun_induction mergeKnots old new with
  | case1 old => exact ⟨old, rfl, by simp, ho⟩
  | case2 n new => obtain ⟨y, hy, _⟩ := hle n (by simp); simp at hy
  | case3 o old n new hlt ih =>
    rw [List.pairwise_cons] at ho
    obtain ⟨m, hm, hp, hs⟩ := ih ho.2 hn (by
      intro x hx
      obtain ⟨y, hy, hxy⟩ := hle x hx
      rw [List.mem_cons] at hy
      rcases hy with rfl | hy
      · exfalso
        have hnx : n ≤ x := by
          rw [List.mem_cons] at hx
          rcases hx with rfl | hx
          · exact le_rfl
          · exact (List.pairwise_cons.1 hn).1 x hx
        exact absurd (lt_of_lt_of_le hlt (le_trans hnx hxy)) (lt_irrefl _)
      · exact ⟨y, hy, hxy⟩)
    refine ⟨o :: m, by rw [hm]; rfl, hp.cons o, List.pairwise_cons.2 ⟨?_, hs⟩⟩
    intro a ha
    rw [hp.mem_iff, List.mem_append] at ha
    rcases ha with ha | ha
    · exact ho.1 a ha
    · rw [List.mem_cons] at ha
      rcases ha with rfl | ha
      · exact le_of_lt hlt
      · exact le_trans (le_of_lt hlt) ((List.pairwise_cons.1 hn).1 a ha)
  | case4 o old n new hlt ih =>
    have hn' := List.pairwise_cons.1 hn
    obtain ⟨m, hm, hp, hs⟩ := ih ho hn'.2 (fun x hx => hle x (by simp [hx]))
    refine ⟨n :: m, by rw [hm]; rfl, ?_, List.pairwise_cons.2 ⟨?_, hs⟩⟩
    · exact (hp.cons n).trans List.perm_middle.symm
    · intro a ha
      rw [hp.mem_iff, List.mem_append] at ha
      rcases ha with ha | ha
      · rw [List.mem_cons] at ha
        rcases ha with rfl | ha
        · exact not_lt.1 hlt
        · exact le_trans (not_lt.1 hlt) ((List.pairwise_cons.1 ho).1 a ha)
      · exact hn'.1 a ha

/-- **C03**: the merged knot vector is non-decreasing and contains the old and the new knots with their multiplicities; the new knots may come
in any order, they must not lie behind the old knots. -/
theorem merged_knots_partial (old knots : List K) (ho : old.Pairwise (· ≤ ·)) (hle : ∀ x ∈ knots, ∃ y ∈ old, x ≤ y) :
    ∃ m, mergeKnots old (knots.mergeSort (· ≤ ·)) = some m ∧ m.Perm (old ++ knots) ∧ m.Pairwise (· ≤ ·) ∧
      ∀ x, m.count x = old.count x + knots.count x := by
  have hp := List.mergeSort_perm knots (· ≤ ·)
  have hs : (knots.mergeSort (· ≤ ·)).Pairwise (· ≤ ·) := by
    have := List.pairwise_mergeSort (le := fun (a b : K) => decide (a ≤ b))
      (fun a b c h1 h2 => by simp only [decide_eq_true_eq] at *; exact le_trans h1 h2)
      (fun a b => by simp only [Bool.or_eq_true, decide_eq_true_eq]; exact le_total a b) knots
    simpa using this
  obtain ⟨m, hm, hmp, hms⟩ := mergeKnots_spec old _ ho hs (fun x hx => hle x (hp.mem_iff.1 hx))
  have hmp' : m.Perm (old ++ knots) := hmp.trans (hp.append_left old)
  exact ⟨m, hm, hmp', hms, fun x => by rw [hmp'.count_eq, List.count_append]⟩

/-- A new knot behind all old knots makes the code read behind the old knot vector. -/
theorem merge_behind_violates (old knots : List K) (x : K) (hx : x ∈ knots) (h : ∀ y ∈ old, y < x) (hs : knots.Pairwise (· ≤ ·)) :
    mergeKnots old knots = none := by
  fun_induction mergeKnots old knots with
  | case1 old => simp at hx
  | case2 n new => rfl
  | case3 o old n new hlt ih => rw [ih hx (fun y hy => h y (by simp [hy])) hs]; rfl
  | case4 o old n new hlt ih =>
    rw [List.mem_cons] at hx
    rcases hx with rfl | hx
    · exact absurd (h o (by simp)) hlt
    · rw [ih hx h (List.pairwise_cons.1 hs).2]; rfl

example : ∃ y ∈ [0, 0, 1, 1, (2 : ℚ)], (3 / 2 : ℚ) ≤ y := ⟨2, by decide +kernel, by decide +kernel⟩

/-! ### index functions -/

theorem globalToLocal_eq (g : ℕ) (ns : List ℕ) : globalToLocal g ns = digits ns g := by
  induction ns generalizing g with
  | nil => rfl
  | cons n ns ih => simp [globalToLocal, digits, ih]

theorem localToGlobal_eq (cs ns : List ℕ) (h : cs.length = ns.length) : localToGlobal cs ns = flat ns cs := by
  induction cs generalizing ns with
  | nil => cases ns <;> simp_all [localToGlobal, flat]
  | cons c cs ih =>
    cases ns with
    | nil => simp at h
    | cons n ns =>
      cases cs with
      | nil =>
        cases ns with
        | nil => simp [localToGlobal, flat]
        | cons _ _ => simp at h
      | cons c' cs =>
        rw [localToGlobal, ih ns (by simpa using h), flat]
        · ring
        · simp

theorem flat_split (l1 l2 c1 c2 : List ℕ) (n k : ℕ) (h : l1.length = c1.length) :
    flat (l1 ++ n :: l2) (c1 ++ k :: c2) = flat l1 c1 + l1.prod * (k + n * flat l2 c2) := by
  induction l1 generalizing c1 with
  | nil =>
    cases c1 with
    | nil => simp [flat]
    | cons _ _ => simp at h
  | cons r l1 ih =>
    cases c1 with
    | nil => simp at h
    | cons c c1 =>
      simp only [List.cons_append, flat, List.prod_cons]
      rw [ih c1 (by simpa using h)]
      ring

theorem digits_split (l1 l2 : List ℕ) (n a i c : ℕ) (ha : a < l1.prod) (hi : i < n) :
    digits (l1 ++ n :: l2) (a + l1.prod * (i + n * c)) = digits l1 a ++ i :: digits l2 c := by
  induction l1 generalizing a with
  | nil =>
    simp only [List.prod_nil] at ha
    have : a = 0 := by omega
    subst this
    simp only [List.nil_append, digits, List.prod_nil, one_mul, zero_add]
    rw [Nat.add_mul_mod_self_left, Nat.mod_eq_of_lt hi, Nat.add_mul_div_left _ _ (by omega), Nat.div_eq_of_lt hi, zero_add]
  | cons r l1 ih =>
    simp only [List.cons_append, digits, List.prod_cons] at *
    have hr : 0 < r := by
      rcases Nat.eq_zero_or_pos r with h | h
      · subst h; simp at ha
      · exact h
    rw [mul_assoc, Nat.add_mul_mod_self_left, Nat.add_mul_div_left _ _ hr, ih (a / r) (Nat.div_lt_of_lt_mul ha)]

theorem sum_range_mul (A B : ℕ) (F : ℕ → K) :
    ∑ g ∈ Finset.range (A * B), F g = ∑ b ∈ Finset.range B, ∑ a ∈ Finset.range A, F (a + A * b) := by
  induction B with
  | zero => simp
  | succ B ih =>
    rw [Nat.mul_succ, Finset.sum_range_add, ih, Finset.sum_range_succ]
    simp [add_comm]

theorem sum_range_split (l1 l2 : List ℕ) (n : ℕ) (F : ℕ → K) :
    ∑ g ∈ Finset.range (l1 ++ n :: l2).prod, F g =
      ∑ c ∈ Finset.range l2.prod, ∑ i ∈ Finset.range n, ∑ a ∈ Finset.range l1.prod, F (a + l1.prod * (i + n * c)) := by
  rw [List.prod_append, List.prod_cons, sum_range_mul, sum_range_mul]

theorem basisProduct_split (b1 b2 : List (ℕ → K)) (c1 c2 : List ℕ) (b : ℕ → K) (i : ℕ) (h : b1.length = c1.length) :
    basisProduct (b1 ++ b :: b2) (c1 ++ i :: c2) = basisProduct b1 c1 * (b i * basisProduct b2 c2) := by
  unfold basisProduct
  rw [List.zipWith_append h]
  simp

/-! ### the sparse matrix of a tensor product -/

/-- the triples of the sparse matrix -/
def triples (es : List (Entry K)) : List (ℕ × ℕ × K) := es.map (fun e => (e.row, e.col, e.value))

theorem filter_flatMap_row (N g : ℕ) (hg : g < N) (block : ℕ → List (ℕ × ℕ × K)) (hb : ∀ g, ∀ e ∈ block g, e.1 = g) :
    ((List.range N).flatMap block).filter (fun e => e.1 = g) = block g := by
  induction N with
  | zero => omega
  | succ N ih =>
    rw [List.range_succ, List.flatMap_append, List.filter_append]
    simp only [List.flatMap_singleton]
    rcases Nat.lt_or_ge g N with h | h
    · rw [ih h]
      have : (block N).filter (fun e => decide (e.1 = g)) = [] := by
        rw [List.filter_eq_nil_iff]
        intro e he
        rw [hb N e he]; simp; omega
      rw [this, List.append_nil]
    · have hgN : g = N := by omega
      subst hgN
      have h1 : ((List.range g).flatMap block).filter (fun e => decide (e.1 = g)) = [] := by
        rw [List.filter_eq_nil_iff]
        intro e he
        rw [List.mem_flatMap] at he
        obtain ⟨g', hg', he⟩ := he
        rw [hb g' e he]; rw [List.mem_range] at hg'; simp; omega
      have h2 : (block g).filter (fun e => decide (e.1 = g)) = block g := by
        rw [List.filter_eq_self]
        intro e he
        rw [hb g e he]; simp
      rw [h1, h2, List.nil_append]

/-- sum over a window of indices outside of which the terms vanish -/
theorem sum_window (m s p : ℕ) (h1 : s + p < m) (f : ℕ → K) (h : ∀ k < m, f k ≠ 0 → s ≤ k ∧ k ≤ s + p) :
    ∑ q ∈ Finset.range (p + 1), f (s + q) = ∑ k ∈ Finset.range m, f k := by
  rw [← Finset.sum_subset (s₁ := (Finset.range (p + 1)).image (fun q => s + q)) (s₂ := Finset.range m)]
  · rw [Finset.sum_image]
    intro a _ b _ hab
    simpa using hab
  · intro x hx
    rw [Finset.mem_image] at hx
    obtain ⟨q, hq, rfl⟩ := hx
    rw [Finset.mem_range] at *
    omega
  · intro k hk hk2
    by_contra hne
    rw [Finset.mem_range] at hk
    have := h k hk hne
    apply hk2
    rw [Finset.mem_image]
    exact ⟨k - s, by rw [Finset.mem_range]; omega, by omega⟩

/-- the list of `n_cps` of the directions, split at the refined one -/
theorem nCps_split {kvs : List (List K)} {degrees : List ℕ} {dim : ℕ} {kv : List K} {p : ℕ} (hlen : kvs.length = degrees.length)
    (hkv : kvs[dim]? = some kv) (hp : degrees[dim]? = some p) :
    ∃ l1 l2, nCpsOld kvs degrees = l1 ++ (kv.length - p - 1) :: l2 ∧ l1.length = dim ∧ l1.length + 1 + l2.length = kvs.length := by
  obtain ⟨h1, rfl⟩ := List.getElem?_eq_some_iff.1 hkv
  obtain ⟨h2, rfl⟩ := List.getElem?_eq_some_iff.1 hp
  refine ⟨(nCpsOld kvs degrees).take dim, (nCpsOld kvs degrees).drop (dim + 1), ?_, ?_, ?_⟩
  · have h3 : dim < (nCpsOld kvs degrees).length := by simp [nCpsOld]; omega
    have h4 : (nCpsOld kvs degrees)[dim] = kvs[dim].length - degrees[dim] - 1 := by simp [nCpsOld]
    rw [← h4, List.getElem_cons_drop, List.take_append_drop]
  · simp [nCpsOld]; omega
  · simp [nCpsOld]; omega

section
variable {p : ℕ} {kv knots new : List K} {tol : K}

/-- the merged knot vector of the code is the one of the specification -/
theorem merge_eq (H : Insertion p kv knots new tol) : mergeKnots kv (knots.mergeSort (· ≤ ·)) = some new := by
  have hl := H.length
  obtain ⟨m, hm, hmp, hms, _⟩ := merged_knots_partial kv knots H.sorted_old (by
    intro x hx
    exact ⟨knotSeq kv (kv.length - p - 1), at_mem (by omega), le_of_lt (H.inside x hx).2⟩)
  rw [hm]
  congr 1
  exact List.Perm.eq_of_pairwise' hms H.sorted_new (hmp.trans H.union.symm)

/-- **C01 / C03 for tensor products.** `ComputeGlobalKnotInsertionMatrix` succeeds; the knot vector it refers to is the sorted union; the
matrix has one row per control point of the refined and one column per control point of the old net; all row and column ids are
inside of the matrix; no position is listed twice; and replacing the control points `coef` by `matrix * coef` while refining
direction `dim` does not change the value of the tensor product, whatever the basis values `B` in the other directions are. -/
theorem global_insertion_preserves_tensor {kvs : List (List K)} {degrees : List ℕ} {dim : ℕ} (hlen : kvs.length = degrees.length)
    (hkv : kvs[dim]? = some kv) (hp : degrees[dim]? = some p) (H : Insertion p kv knots new tol) :
    let nOld := nCpsOld kvs degrees
    let nNew := nOld.set dim (new.length - p - 1)
    ∃ G, globalInsertionMatrix kvs degrees dim knots tol = some G ∧ G.newKnotVector = new ∧ G.shape = (nNew.prod, nOld.prod) ∧
      (∀ e ∈ G.entries, e.row < nNew.prod ∧ e.col < nOld.prod ∧ (digits nOld e.col).eraseIdx dim = (digits nNew e.row).eraseIdx dim) ∧
      (G.entries.map (fun e => (e.row, e.col))).Nodup ∧
      ∀ (B : List (ℕ → K)) (coef : List K) (x : K), B.length = kvs.length →
        knotSeq kv p ≤ x → x < knotSeq kv (kv.length - p - 1) →
        tensorEval (B.set dim (fun j => basis (knotSeq kv) p j x)) nOld coef =
          tensorEval (B.set dim (fun i => basis (knotSeq new) p i x)) nNew
            ((List.range nNew.prod).map (sparseMulVec (triples G.entries) coef)) := by
  intro nOld nNew
  have hn := Ins.newLength H
  have hl := H.length
  have hdeg := H.degree
  obtain ⟨l1, l2, hsplit, hdim, htot⟩ := nCps_split hlen hkv hp
  set m := kv.length - p - 1 with hm
  set n := new.length - p - 1 with hnn
  have hnOld : nOld = l1 ++ m :: l2 := hsplit
  have hnNew : nNew = l1 ++ n :: l2 := by
    change nOld.set dim n = _
    rw [hnOld, ← hdim]; simp
  obtain ⟨base, sp, ι, he, hb, hι, hblen, hR⟩ := insertionMatrix_spec H
  have hbasis := basis_refined H
  rw [he] at hbasis
  obtain ⟨rows, base', hrb, hbasis⟩ := hbasis
  rw [Option.some.injEq, Prod.mk.injEq] at hrb
  obtain ⟨hrows, rfl⟩ := hrb
  have hconv := knot_insertion_rows_convex H
  rw [← hm, ← hnn] at he
  set F : ℕ → ℕ → K := fun i => Blossom.row (knotSeq kv) (knotSeq new) sp i p with hF
  have hRows : rows = (List.range n).map (fun i => (List.range m).map (F i)) := hrows.symm
  have hFsupp : ∀ i k, F i k ≠ 0 → k ≤ sp i ∧ sp i ≤ k + p := fun i k hk => Blossom.supp_bl _ _ _ _ _ hk
  -- the refined net as computed by the code
  have hgetm : nOld.getD dim 0 = m := by rw [hnOld, ← hdim]; simp
  have hnNew' : nOld.set dim (nOld.getD dim 0 + knots.length) = nNew := by
    change _ = nOld.set dim n
    rw [hgetm]; congr 1; omega
  have hgetn : nNew.getD dim 0 = n := by rw [hnNew, ← hdim]; simp
  have hmpos : 0 < m := by omega
  have hcount : nOld.prod / nOld.getD dim 0 * nNew.getD dim 0 = nNew.prod := by
    rw [hgetm, hgetn, hnOld, hnNew, List.prod_append, List.prod_cons, List.prod_append, List.prod_cons]
    rw [show l1.prod * (m * l2.prod) = m * (l1.prod * l2.prod) by ring, Nat.mul_div_cancel_left _ hmpos]; ring
  -- the block of entries of one row
  set block : ℕ → List (Entry K) := fun g =>
    (List.range (p + 1)).map (fun q =>
      let iRow := (digits nNew g).getD dim 0
      { row := g, col := localToGlobal ((digits nNew g).set dim ((base.getD iRow 0).toNat - p + q)) nOld,
        value := (rows.getD iRow []).getD ((base.getD iRow 0).toNat - p + q) 0 }) with hblock
  have hG : globalInsertionMatrix kvs degrees dim knots tol =
      some ⟨(List.range nNew.prod).flatMap block, (nNew.prod, nOld.prod), new⟩ := by
    unfold globalInsertionMatrix
    simp only [hkv, hp, Option.bind_eq_bind, Option.bind_some, merge_eq H, he]
    change some _ = some _
    congr 1
    rw [show nCpsOld kvs degrees = nOld from rfl, hnNew', hcount]
    simp only [globalToLocal_eq, hRows, hblock, hF]
  -- description of one row
  have hrow : ∀ a i c, a < l1.prod → i < n → ∀ q, q ≤ p →
      localToGlobal ((digits nNew (a + l1.prod * (i + n * c))).set dim (sp i - p + q)) nOld =
        a + l1.prod * ((sp i - p + q) + m * (flat l2 (digits l2 c))) := by
    intro a i c ha hi q hq
    rw [hnNew, digits_split l1 l2 n a i c ha hi]
    have hdl : (digits l1 a).length = dim := by rw [digits_length, hdim]
    rw [List.set_append_right _ _ (by omega), hdl, Nat.sub_self, List.set_cons_zero, hnOld, localToGlobal_eq, flat_split]
    · rw [flat_digits l1 a ha]
    · rw [digits_length]
    · simp [digits_length]
  have hiRow : ∀ a i c, a < l1.prod → i < n → (digits nNew (a + l1.prod * (i + n * c))).getD dim 0 = i := by
    intro a i c ha hi
    rw [hnNew, digits_split l1 l2 n a i c ha hi]
    have hdl : (digits l1 a).length = dim := by rw [digits_length, hdim]
    rw [List.getD_append_right _ _ _ _ (by omega), hdl]; simp
  have hbaseNat : ∀ i < n, (base.getD i 0).toNat = sp i := by
    intro i hi; rw [(hb i hi).1]; rfl
  have hgdecomp : ∀ g < nNew.prod, ∃ a i c, a < l1.prod ∧ i < n ∧ c < l2.prod ∧ g = a + l1.prod * (i + n * c) := by
    intro g hg
    rw [hnNew, List.prod_append, List.prod_cons] at hg
    have hA : 0 < l1.prod := by
      rcases Nat.eq_zero_or_pos l1.prod with h | h
      · rw [h] at hg; simp at hg
      · exact h
    have hn0 : 0 < n := by omega
    refine ⟨g % l1.prod, (g / l1.prod) % n, g / l1.prod / n, Nat.mod_lt _ hA, Nat.mod_lt _ hn0, ?_, ?_⟩
    · apply Nat.div_lt_of_lt_mul; apply Nat.div_lt_of_lt_mul; exact hg
    · rw [Nat.mod_add_div, Nat.mod_add_div]
  refine ⟨_, hG, rfl, rfl, ?_, ?_, ?_⟩
  · -- ids are inside
    intro e hemem
    rw [List.mem_flatMap] at hemem
    obtain ⟨g, hg, hemem⟩ := hemem
    rw [List.mem_range] at hg
    obtain ⟨a, i, c, ha, hi, hc, rfl⟩ := hgdecomp g hg
    simp only [hblock, List.mem_map, List.mem_range] at hemem
    obtain ⟨q, hq, rfl⟩ := hemem
    simp only
    rw [hiRow a i c ha hi, hbaseNat i hi, hrow a i c ha hi q (by omega), flat_digits l2 c hc]
    have hb' := hb i hi
    refine ⟨hg, ?_, ?_⟩
    · rw [hnOld, List.prod_append, List.prod_cons]
      have h1 : sp i - p + q + m * c < m * l2.prod := by
        calc sp i - p + q + m * c < m + m * c := by omega
          _ = m * (c + 1) := by ring
          _ ≤ m * l2.prod := Nat.mul_le_mul_left _ hc
      calc a + l1.prod * (sp i - p + q + m * c) < l1.prod + l1.prod * (sp i - p + q + m * c) := by omega
        _ = l1.prod * (sp i - p + q + m * c + 1) := by ring
        _ ≤ l1.prod * (m * l2.prod) := Nat.mul_le_mul_left _ h1
    · rw [hnOld, hnNew, digits_split l1 l2 m a _ c ha (by omega), digits_split l1 l2 n a i c ha hi]
      have hdl : (digits l1 a).length = dim := by rw [digits_length, hdim]
      rw [List.eraseIdx_append_of_length_le (by omega), List.eraseIdx_append_of_length_le (by omega), hdl]
      simp
  · -- no position twice
    rw [List.map_flatMap, List.nodup_flatMap]
    constructor
    · intro g hg
      rw [List.mem_range] at hg
      obtain ⟨a, i, c, ha, hi, hc, rfl⟩ := hgdecomp g hg
      simp only [hblock, List.map_map]
      rw [List.nodup_map_iff_inj_on List.nodup_range]
      intro q hq q' hq' heq
      rw [List.mem_range] at hq hq'
      simp only [Function.comp, Prod.mk.injEq, true_and] at heq
      rw [hiRow a i c ha hi, hbaseNat i hi, hrow a i c ha hi q (by omega), hrow a i c ha hi q' (by omega)] at heq
      have h1 := Nat.eq_of_mul_eq_mul_left (show 0 < l1.prod by omega) (Nat.add_left_cancel heq)
      omega
    · rw [List.pairwise_iff_getElem]
      intro i j hi hj hij
      simp only [List.getElem_range, Function.onFun]
      intro x hx hx'
      simp only [hblock, List.map_map, List.mem_map, Function.comp] at hx hx'
      obtain ⟨_, _, rfl⟩ := hx
      obtain ⟨_, _, h⟩ := hx'
      rw [Prod.mk.injEq] at h
      omega
  · -- evaluation
    intro B coef x hB hx1 hx2
    have hsparse : ∀ a i c, a < l1.prod → i < n → c < l2.prod →
        ((List.range nNew.prod).map (sparseMulVec (triples ((List.range nNew.prod).flatMap block)) coef)).getD (a + l1.prod * (i + n * c)) 0 =
          ∑ k ∈ Finset.range m, F i k * coef.getD (a + l1.prod * (k + m * c)) 0 := by
      intro a i c ha hi hc
      have hg : a + l1.prod * (i + n * c) < nNew.prod := by
        rw [hnNew, List.prod_append, List.prod_cons]
        have h1 : i + n * c < n * l2.prod := by
          calc i + n * c < n + n * c := by omega
            _ = n * (c + 1) := by ring
            _ ≤ n * l2.prod := Nat.mul_le_mul_left _ hc
        calc a + l1.prod * (i + n * c) < l1.prod + l1.prod * (i + n * c) := by omega
          _ = l1.prod * (i + n * c + 1) := by ring
          _ ≤ l1.prod * (n * l2.prod) := Nat.mul_le_mul_left _ h1
      rw [List.getD_eq_getElem?_getD, List.getElem?_map, List.getElem?_range hg, Option.map_some, Option.getD_some]
      unfold sparseMulVec triples
      rw [List.map_flatMap, filter_flatMap_row _ _ hg]
      · simp only [hblock, List.map_map]
        rw [list_sum_range]
        have hb' := hb i hi
        rw [← sum_window m (sp i - p) p (by omega) (fun k => F i k * coef.getD (a + l1.prod * (k + m * c)) 0)]
        · apply Finset.sum_congr rfl
          intro q hq
          rw [Finset.mem_range] at hq
          simp only [Function.comp]
          rw [hiRow a i c ha hi, hbaseNat i hi, hrow a i c ha hi q (by omega), flat_digits l2 c hc, hRows,
            getD_map _ _ _ _ _ hi (by omega)]
        · intro k hk hne
          have := hFsupp i k (fun h => hne (by simp only [h, zero_mul]))
          omega
      · intro g e hemem
        simp only [hblock, List.map_map, List.mem_map, Function.comp] at hemem
        obtain ⟨_, _, rfl⟩ := hemem
        rfl
    obtain ⟨b1, bx, b2, hBs, hb1⟩ : ∃ b1 bx b2, B = b1 ++ bx :: b2 ∧ b1.length = dim := by
      refine ⟨B.take dim, B[dim]'(by omega), B.drop (dim + 1), ?_, by simp; omega⟩
      rw [List.getElem_cons_drop, List.take_append_drop]
    have hset : ∀ f : ℕ → K, B.set dim f = b1 ++ f :: b2 := by
      intro f; rw [hBs, ← hb1]; simp
    have hside : ∀ (N : ℕ) (f : ℕ → K) (cf : List K), tensorEval (b1 ++ f :: b2) (l1 ++ N :: l2) cf =
        ∑ c ∈ Finset.range l2.prod, ∑ i ∈ Finset.range N, ∑ a ∈ Finset.range l1.prod,
          basisProduct b1 (digits l1 a) * (f i * basisProduct b2 (digits l2 c)) * cf.getD (a + l1.prod * (i + N * c)) 0 := by
      intro N f cf
      unfold tensorEval
      rw [list_sum_range, sum_range_split]
      apply Finset.sum_congr rfl; intro c _
      apply Finset.sum_congr rfl; intro i hi
      apply Finset.sum_congr rfl; intro a ha
      rw [Finset.mem_range] at ha hi
      rw [digits_split l1 l2 N a i c ha hi, basisProduct_split]
      rw [digits_length, hb1, hdim]
    simp only
    generalize (List.range nNew.prod).map (sparseMulVec (triples ((List.range nNew.prod).flatMap block)) coef) = cf at hsparse ⊢
    rw [hset, hset, hnOld, hside, show nNew = l1 ++ n :: l2 from hnNew, hside]
    apply Finset.sum_congr rfl
    intro c hc
    rw [Finset.mem_range] at hc
    rw [Finset.sum_comm, Finset.sum_comm (s := Finset.range n)]
    apply Finset.sum_congr rfl
    intro a ha
    rw [Finset.mem_range] at ha
    have hR1 : ∀ i ∈ Finset.range n, basisProduct b1 (digits l1 a) * (basis (knotSeq new) p i x * basisProduct b2 (digits l2 c)) *
        cf.getD (a + l1.prod * (i + n * c)) 0 =
        ∑ k ∈ Finset.range m, basisProduct b1 (digits l1 a) * basisProduct b2 (digits l2 c) * coef.getD (a + l1.prod * (k + m * c)) 0 *
          (F i k * basis (knotSeq new) p i x) := by
      intro i hi
      rw [Finset.mem_range] at hi
      rw [hsparse a i c ha hi hc, Finset.mul_sum]
      apply Finset.sum_congr rfl
      intro k _
      ring
    rw [Finset.sum_congr rfl hR1, Finset.sum_comm]
    apply Finset.sum_congr rfl
    intro k hk
    rw [Finset.mem_range] at hk
    rw [← Finset.mul_sum, hbasis x hx1 hx2 k hk]
    have : ∑ i ∈ Finset.range n, F i k * basis (knotSeq new) p i x =
        ∑ i ∈ Finset.range (new.length - p - 1), (rows.getD i []).getD k 0 * basis (knotSeq new) p i x := by
      apply Finset.sum_congr rfl
      intro i hi
      rw [Finset.mem_range] at hi
      rw [hRows, getD_map _ _ _ _ _ hi hk]
    rw [this]
    ring

end

/-- The hypotheses are met by a surface that is refined in its second direction. -/
example : ∃ G, globalInsertionMatrix [[0, 0, 1, (1 : ℚ)], [0, 0, 0, 1, 1, 1]] [1, 2] 1 [1 / 2] (1 / 1000) = some G ∧ G.shape = (8, 6) ∧
    G.newKnotVector = [0, 0, 0, 1 / 2, 1, 1, 1] := by decide +kernel

end Splinepy.KnotInsertion
