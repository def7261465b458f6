import Verif.Lemma.Boehm
import Mathlib.LinearAlgebra.Matrix.Determinant.Basic
import Mathlib.LinearAlgebra.Multilinear.Basic
import Mathlib.Data.Set.Card
import Mathlib.Order.WellFounded
import Mathlib.Data.Fintype.Fin

set_option linter.unusedSectionVars false

/-!
Total positivity of B-spline collocation matrices, by inserting the abscissae as knots until they have multiplicity `p`
(de Boor and DeVore), and the Schoenberg–Whitney theorem.
-/
namespace Splinepy.Boehm

variable {K : Type*} [Field K] [LinearOrder K] [IsStrictOrderedRing K]

/-- values of the basis functions `J` at the points `x`; row `l` belongs to the basis function `J l` -/
def colloc {k : ℕ} (t : ℕ → K) (p : ℕ) (J : Fin k → ℕ) (x : Fin k → K) : Matrix (Fin k) (Fin k) K :=
  Matrix.of fun l i => Spec.basis t p (J l) (x i)

/-- every point in the interior of the support of its basis function -/
def Inside {k : ℕ} (t : ℕ → K) (p : ℕ) (J : Fin k → ℕ) (x : Fin k → K) : Prop :=
  ∀ i, t (J i) < x i ∧ x i < t (J i + p + 1)

/-- all minors are non-negative, and positive if every point lies inside the support of its basis function -/
def TP {k : ℕ} (t : ℕ → K) (p : ℕ) (x : Fin k → K) : Prop :=
  ∀ J : Fin k → ℕ, StrictMono J →
    0 ≤ (colloc t p J x).det ∧ (Inside t p J x → 0 < (colloc t p J x).det)

theorem ca_pos {t : ℕ → K} (ht : Monotone t) {r : ℕ} {y : K} (h2 : y < t (r + 1)) {d j : ℕ} (hj : t j < y) :
    0 < ca t r y d j := by
  have hjr : j ≤ r := by
    by_contra h
    have := ht (show r + 1 ≤ j by omega)
    linarith
  unfold ca
  split
  · exact zero_lt_one
  · rw [if_neg (by omega)]
    have := ht (show r + 1 ≤ j + d by omega)
    exact div_pos (by linarith) (by linarith)

theorem cb_pos {t : ℕ → K} (ht : Monotone t) {r : ℕ} {y : K} (h1 : t r ≤ y) {d i : ℕ} (hi : y < t (i + d)) :
    0 < cb t r y d i := by
  have hir : ¬ i + d ≤ r := by
    intro h
    have := ht h
    linarith
  unfold cb
  rw [if_neg hir]
  split
  · exact zero_lt_one
  · have := ht (show i ≤ r by omega)
    exact div_pos (by linarith) (by linarith)

/-- the two choices for a basis function -/
def pickId (J : ℕ) (b : Prop) [Decidable b] : ℕ := if b then J else J + 1

theorem tp_step {k : ℕ} {t : ℕ → K} (ht : Monotone t) {r : ℕ} {y : K} (h1 : t r ≤ y) (h2 : y < t (r + 1)) {p : ℕ}
    (hp : 1 ≤ p) {x : Fin k → K} (hx : StrictMono x)
    (hm : ∀ j, j + p = r → t j < y → t (j + 1) < y) (H : TP (ins t r y) p x) : TP t p x := by
  classical
  intro J hJ
  have hexp : (colloc t p J x).det = ∑ s : Finset (Fin k),
      (∏ l, if l ∈ s then ca t r y p (J l) else cb t r y p (J l + 1)) *
        (colloc (ins t r y) p (fun l => pickId (J l) (l ∈ s)) x).det := by
    have e : colloc t p J x = (fun l => ca t r y p (J l) • (fun i => Spec.basis (ins t r y) p (J l) (x i))) +
        (fun l => cb t r y p (J l + 1) • (fun i => Spec.basis (ins t r y) p (J l + 1) (x i))) := by
      funext l i
      simp only [colloc, Matrix.of_apply, Pi.add_apply, Pi.smul_apply, smul_eq_mul]
      exact boehm ht h1 h2.le p (J l) (x i)
    have := (Matrix.detRowAlternating (R := K) (n := Fin k)).toMultilinearMap.map_add_univ
      (fun l => ca t r y p (J l) • (fun i => Spec.basis (ins t r y) p (J l) (x i)))
      (fun l => cb t r y p (J l + 1) • (fun i => Spec.basis (ins t r y) p (J l + 1) (x i)))
    rw [← e] at this
    refine Eq.trans this (Finset.sum_congr rfl ?_)
    intro s _
    have e2 : s.piecewise (fun l => ca t r y p (J l) • (fun i => Spec.basis (ins t r y) p (J l) (x i)))
        (fun l => cb t r y p (J l + 1) • (fun i => Spec.basis (ins t r y) p (J l + 1) (x i))) =
        fun l => (if l ∈ s then ca t r y p (J l) else cb t r y p (J l + 1)) •
          (colloc (ins t r y) p (fun l => pickId (J l) (l ∈ s)) x l) := by
      funext l i
      by_cases hl : l ∈ s
      · simp [hl, colloc, pickId]
      · simp [hl, colloc, pickId]
    rw [e2]
    exact (Matrix.detRowAlternating (R := K) (n := Fin k)).toMultilinearMap.map_smul_univ _ _
  have hterm : ∀ s : Finset (Fin k), 0 ≤ (∏ l, if l ∈ s then ca t r y p (J l) else cb t r y p (J l + 1)) *
        (colloc (ins t r y) p (fun l => pickId (J l) (l ∈ s)) x).det := by
    intro s
    apply mul_nonneg
    · apply Finset.prod_nonneg
      intro l _
      split
      · exact ca_nonneg ht h1 h2.le _ _
      · exact cb_nonneg ht h1 h2.le _ _
    · by_cases hinj : Function.Injective (fun l => pickId (J l) (l ∈ s))
      · refine (H _ ?_).1
        refine Monotone.strictMono_of_injective ?_ hinj
        intro a b hab
        rcases eq_or_lt_of_le hab with h | h
        · subst h; exact le_refl _
        · have := hJ h
          unfold pickId
          dsimp only
          split <;> split <;> omega
      · simp only [Function.Injective, not_forall] at hinj
        obtain ⟨a, b, hab, hne⟩ := hinj
        apply le_of_eq
        refine (Matrix.det_zero_of_row_eq hne ?_).symm
        funext i
        simp only [colloc, Matrix.of_apply]
        rw [hab]
  rw [hexp]
  refine ⟨Finset.sum_nonneg fun s _ => hterm s, fun hin => ?_⟩
  refine Finset.sum_pos' (fun s _ => hterm s)
    ⟨Finset.univ.filter (fun l => x l < y ∨ (x l = y ∧ r < J l + p)), Finset.mem_univ _, ?_⟩
  simp only [Finset.mem_filter, Finset.mem_univ, true_and]
  have hlow : ∀ l, (x l < y ∨ (x l = y ∧ r < J l + p)) → t (J l) < y := by
    intro l h
    have := (hin l).1
    rcases h with h | h
    · linarith
    · rw [h.1] at this; exact this
  have hhigh : ∀ l, ¬ (x l < y ∨ (x l = y ∧ r < J l + p)) → y < t (J l + 1 + p) := by
    intro l h
    have := (hin l).2
    rw [show J l + 1 + p = J l + p + 1 by omega]
    have : y ≤ x l := by
      by_contra hc
      exact h (Or.inl (not_le.1 hc))
    linarith
  apply mul_pos
  · apply Finset.prod_pos
    intro l _
    by_cases h : x l < y ∨ (x l = y ∧ r < J l + p)
    · rw [if_pos h]; exact ca_pos ht h2 (hlow l h)
    · rw [if_neg h]; exact cb_pos ht h1 (hhigh l h)
  · refine (H _ ?_).2 ?_
    · intro a b hab
      have hJab := hJ hab
      have hxab := hx hab
      unfold pickId
      dsimp only
      by_cases ha : x a < y ∨ (x a = y ∧ r < J a + p)
      · rw [if_pos ha]
        split <;> omega
      · rw [if_neg ha, if_neg]
        · omega
        · intro hb
          have hya : y ≤ x a := by
            by_contra hc
            exact ha (Or.inl (not_le.1 hc))
          rcases hb with hb | hb
          · linarith
          · linarith [hb.1]
    · intro i
      obtain ⟨hi1, hi2⟩ := hin i
      unfold pickId
      dsimp only
      by_cases h : x i < y ∨ (x i = y ∧ r < J i + p)
      · rw [if_pos h]
        have hjy := hlow i h
        have hjr : J i ≤ r := by
          by_contra hc
          have := ht (show r + 1 ≤ J i by omega)
          linarith
        rw [ins_low hjr]
        refine ⟨hi1, ?_⟩
        rcases Nat.lt_trichotomy (J i + p) r with h' | h' | h'
        · rw [ins_low (by omega)]; exact hi2
        · rw [h', ins_mid]
          rcases h with h | h
          · exact h
          · omega
        · rw [ins_high h']
          have := ht (show r + 1 ≤ J i + p by omega)
          rcases h with h | h
          · linarith
          · linarith [h.1]
      · rw [if_neg h]
        have hjy := hhigh i h
        have hjr : r < J i + p + 1 := by
          by_contra hc
          have := ht (show J i + p + 1 ≤ r by omega)
          rw [show J i + 1 + p = J i + p + 1 by omega] at hjy
          linarith
        have hyx : y ≤ x i := by
          by_contra hc
          exact h (Or.inl (not_le.1 hc))
        constructor
        · rcases Nat.lt_trichotomy (J i) r with h' | h' | h'
          · rw [ins_low (by omega)]
            rcases eq_or_lt_of_le hyx with he | hlt
            · have hr : J i + p = r := by
                have : ¬ r < J i + p := fun hc => h (Or.inr ⟨he.symm, hc⟩)
                omega
              rw [← he] at hi1 ⊢
              exact hm (J i) hr hi1
            · have := ht (show J i + 1 ≤ r by omega)
              linarith
          · rw [h', ins_mid]
            rcases eq_or_lt_of_le hyx with he | hlt
            · exact absurd (Or.inr ⟨he.symm, by omega⟩) h
            · exact hlt
          · rw [ins_high h']; exact hi1
        · rw [show J i + 1 + p + 1 = (J i + p + 1) + 1 by omega, ins_high hjr]
          exact hi2

/-- a point of multiplicity `p`: exactly one basis function differs from zero -/
theorem basis_unit {t : ℕ → K} (ht : Monotone t) {p q : ℕ} {a : K} (h0 : t q < a) (ha : ∀ i, 1 ≤ i → i ≤ p → t (q + i) = a)
    (h1 : a < t (q + p + 1)) (j : ℕ) : Spec.basis t p j a = if j = q then 1 else 0 := by
  have hp' : t (q + p) ≤ a := by
    rcases Nat.eq_zero_or_pos p with h | h
    · subst h; exact h0.le
    · exact (ha p h (le_refl _)).le
  rw [Blossom.basis_eq_bl ht ⟨hp', h1⟩ p j, Blossom.bl_const_right h1 ha p (le_refl _)]
  dsimp only
  by_cases h : j = q
  · rw [if_pos (by omega), if_pos h]
  · rw [if_neg (by omega), if_neg h]

theorem tp_base {k : ℕ} {t : ℕ → K} (ht : Monotone t) {p : ℕ} (hp : 1 ≤ p) {x : Fin k → K} (hx : StrictMono x) (q : Fin k → ℕ)
    (h0 : ∀ i, t (q i) < x i) (ha : ∀ i l, 1 ≤ l → l ≤ p → t (q i + l) = x i) (h1 : ∀ i, x i < t (q i + p + 1)) :
    TP t p x := by
  classical
  intro J hJ
  have hq : StrictMono q := by
    intro a b hab
    by_contra hc
    have := ht (show q b + 1 ≤ q a + 1 by omega)
    rw [ha b 1 (le_refl _) hp, ha a 1 (le_refl _) hp] at this
    exact absurd (hx hab) (not_lt.2 this)
  have hval : ∀ l i, colloc t p J x l i = if J l = q i then 1 else 0 := by
    intro l i
    exact basis_unit ht (h0 i) (ha i) (h1 i) (J l)
  have hone : J = q → colloc t p J x = 1 := by
    intro h
    ext l i
    rw [hval, h, Matrix.one_apply]
    by_cases hli : l = i
    · rw [if_pos (by rw [hli]), if_pos hli]
    · rw [if_neg (fun hh => hli (hq.injective hh)), if_neg hli]
  constructor
  · by_cases hc : ∃ l, ∀ i, J l ≠ q i
    · obtain ⟨l, hl⟩ := hc
      rw [Matrix.det_eq_zero_of_row_eq_zero l]
      intro i
      rw [hval, if_neg (hl i)]
    · simp only [not_exists, not_forall, not_not] at hc
      have hsub : Finset.univ.image J ⊆ Finset.univ.image q := by
        intro a ha'
        obtain ⟨l, _, rfl⟩ := Finset.mem_image.1 ha'
        obtain ⟨i, hi⟩ := hc l
        exact Finset.mem_image.2 ⟨i, Finset.mem_univ _, hi.symm⟩
      have heq := Finset.eq_of_subset_of_card_le hsub (by
        rw [Finset.card_image_of_injective _ hq.injective, Finset.card_image_of_injective _ hJ.injective])
      have hrange : Set.range J = Set.range q := by
        have := congrArg (fun s : Finset ℕ => (s : Set ℕ)) heq
        simpa using this
      rw [hone ((StrictMono.range_inj hJ hq).1 hrange), Matrix.det_one]
      exact zero_le_one
  · intro hin
    have : J = q := by
      funext i
      obtain ⟨a1, a2⟩ := hin i
      by_contra hne
      rcases Nat.lt_or_gt_of_ne hne with h | h
      · have := ht (show J i + p + 1 ≤ q i + p by omega)
        rw [ha i p hp (le_refl _)] at this
        linarith
      · have := ht (show q i + 1 ≤ J i by omega)
        rw [ha i 1 (le_refl _) hp] at this
        linarith
    rw [hone this, Matrix.det_one]
    exact zero_lt_one

/-- multiplicity of a value in a knot sequence -/
noncomputable def mult (t : ℕ → K) (a : K) : ℕ := {k | t k = a}.ncard

theorem finite_level {t : ℕ → K} (ht : Monotone t) {a : K} (h : ∃ N, a < t N) : {k | t k = a}.Finite := by
  obtain ⟨N, hN⟩ := h
  apply (Set.finite_lt_nat N).subset
  intro k hk
  by_contra hc
  have := ht (not_lt.1 (fun hh : k < N => hc hh))
  rw [hk] at this
  linarith

theorem ins_level (t : ℕ → K) (r : ℕ) (y a : K) :
    {k | ins t r y k = a} = (fun k => if k ≤ r then k else k + 1) '' {k | t k = a} ∪ (if a = y then {r + 1} else ∅) := by
  ext k
  simp only [Set.mem_ofPred_eq, Set.mem_union, Set.mem_image]
  rcases Nat.lt_trichotomy k (r + 1) with h | h | h
  · rw [ins_low (by omega)]
    constructor
    · intro hk; exact Or.inl ⟨k, hk, if_pos (by omega)⟩
    · rintro (⟨k', hk', he⟩ | hk)
      · split at he
        · rw [← he]; exact hk'
        · omega
      · split at hk
        · have : k = r + 1 := hk
          omega
        · exact absurd hk (Set.notMem_empty k)
  · subst h
    rw [ins_mid]
    constructor
    · intro h; right; rw [if_pos h.symm]; rfl
    · rintro (⟨k', hk', he⟩ | hk)
      · split at he <;> omega
      · split at hk
        · rename_i h; exact h.symm
        · exact absurd hk (Set.notMem_empty _)
  · obtain ⟨k, rfl⟩ : ∃ k', k = k' + 1 := ⟨k - 1, by omega⟩
    rw [ins_high (by omega)]
    constructor
    · intro hk; exact Or.inl ⟨k, hk, if_neg (by omega)⟩
    · rintro (⟨k', hk', he⟩ | hk)
      · split at he
        · omega
        · obtain rfl : k' = k := by omega
          exact hk'
      · split at hk
        · have : k + 1 = r + 1 := hk
          omega
        · exact absurd hk (Set.notMem_empty _)

theorem mult_ins {t : ℕ → K} (ht : Monotone t) (r : ℕ) (y a : K) (h : ∃ N, a < t N) :
    mult (ins t r y) a = mult t a + if a = y then 1 else 0 := by
  unfold mult
  have hinj : Function.Injective (fun k : ℕ => if k ≤ r then k else k + 1) := by
    intro a b hab
    dsimp only at hab
    split at hab <;> split at hab <;> omega
  have hf := finite_level ht h
  rw [ins_level]
  split
  · rw [Set.union_singleton, Set.ncard_insert_of_notMem _ (hf.image _), Set.ncard_image_of_injective _ hinj]
    rintro ⟨k, _, hk⟩
    dsimp only at hk
    split at hk <;> omega
  · rw [Set.union_empty, Set.ncard_image_of_injective _ hinj, add_zero]

/-- the last knot not greater than `a` -/
theorem exists_span {t : ℕ → K} {a : K} (h0 : t 0 ≤ a) (h : ∃ N, a < t N) : ∃ r, t r ≤ a ∧ a < t (r + 1) := by
  classical
  have hs := Nat.find_spec h
  have hmin := fun m => Nat.find_min h (m := m)
  have hpos : Nat.find h ≠ 0 := by
    intro he
    rw [he] at hs
    linarith
  refine ⟨Nat.find h - 1, ?_, ?_⟩
  · exact not_lt.1 (hmin _ (by omega))
  · rw [show Nat.find h - 1 + 1 = Nat.find h by omega]
    exact hs

/-- the knots equal to `a` are consecutive -/
theorem level_eq {t : ℕ → K} (ht : Monotone t) {a : K} (h0 : t 0 < a) (h : ∃ N, a < t N) :
    ∃ q, t q < a ∧ (∀ i, 1 ≤ i → i ≤ mult t a → t (q + i) = a) ∧ a < t (q + mult t a + 1) := by
  classical
  obtain ⟨r, hr1, hr2⟩ := exists_span h0.le h
  have h' : ∃ N, a ≤ t N := h.imp fun N hN => hN.le
  have hs := Nat.find_spec h'
  have hmin := fun m => Nat.find_min h' (m := m)
  generalize Nat.find h' = q at hs hmin
  have hq0 : q ≠ 0 := by
    intro he
    rw [he] at hs
    linarith
  have hqr : q ≤ r + 1 := by
    by_contra hc
    exact hmin (r + 1) (by omega) hr2.le
  have hset : {k | t k = a} = Set.Ico q (r + 1) := by
    ext k
    simp only [Set.mem_ofPred_eq, Set.mem_Ico]
    constructor
    · intro hk
      constructor
      · by_contra hc
        exact hmin k (by omega) hk.ge
      · by_contra hc
        have := ht (show r + 1 ≤ k by omega)
        rw [hk] at this
        linarith
    · rintro ⟨c1, c2⟩
      have m1 := ht c1
      have m2 := ht (show k ≤ r by omega)
      exact le_antisymm (by linarith) (by linarith)
  have hmult : mult t a = r + 1 - q := by
    unfold mult
    rw [hset, ← Finset.coe_Ico, Set.ncard_coe_finset, Nat.card_Ico]
  rw [hmult]
  refine ⟨q - 1, not_le.1 (hmin _ (by omega)), ?_, ?_⟩
  · intro i hi1 hi2
    have : q - 1 + i ∈ Set.Ico q (r + 1) := ⟨by omega, by omega⟩
    rw [← hset] at this
    exact this
  · rw [show q - 1 + (r + 1 - q) + 1 = r + 1 by omega]
    exact hr2

/-- Total positivity of B-spline collocation matrices. -/
theorem total_positivity {k : ℕ} {t : ℕ → K} (ht : Monotone t) {p : ℕ} (hp : 1 ≤ p) {x : Fin k → K} (hx : StrictMono x)
    (hlo : ∀ i, t 0 < x i) (hhi : ∀ i, ∃ N, x i < t N) (hmul : ∀ i, mult t (x i) ≤ p) : TP t p x := by
  classical
  generalize hd : ∑ i, (p - mult t (x i)) = D
  induction D using Nat.strong_induction_on generalizing t with
  | _ D ih =>
    by_cases hall : ∀ i, mult t (x i) = p
    · choose q hq1 hq2 hq3 using fun i => level_eq ht (hlo i) (hhi i)
      refine tp_base ht hp hx q hq1 (fun i l h1 h2 => hq2 i l h1 (by rw [hall]; exact h2)) (fun i => ?_)
      have := hq3 i
      rwa [hall] at this
    · simp only [not_forall] at hall
      obtain ⟨i0, hi0⟩ := hall
      obtain ⟨r, hr1, hr2⟩ := exists_span (hlo i0).le (hhi i0)
      refine tp_step ht hr1 hr2 hp hx ?_ ?_
      · intro j hj hjy
        by_contra hc
        have hge := not_lt.1 hc
        -- then `t (j+1), …, t (j+p)` all equal the point
        have hsub : (Finset.Ico (j + 1) (j + 1 + p) : Set ℕ) ⊆ {k | t k = x i0} := by
          intro l hl
          have hl' := Finset.mem_Ico.1 (Finset.mem_coe.1 hl)
          have m1 := ht hl'.1
          have m2 := ht (show l ≤ r by omega)
          exact le_antisymm (by linarith) (by linarith)
        have hcard := Set.ncard_le_ncard hsub (finite_level ht (hhi i0))
        rw [Set.ncard_coe_finset, Nat.card_Ico] at hcard
        have h1 := hmul i0
        unfold mult at h1 hi0
        omega
      · have hhi' : ∀ i, ∃ N, x i < ins t r (x i0) N := by
          intro i
          obtain ⟨N, hN⟩ := hhi i
          refine ⟨(max N (r + 1)) + 1, ?_⟩
          rw [ins_high (by omega)]
          exact lt_of_lt_of_le hN (ht (le_max_left _ _))
        have hmi : ∀ i, mult (ins t r (x i0)) (x i) = mult t (x i) + if i = i0 then 1 else 0 := by
          intro i
          rw [mult_ins ht r (x i0) (x i) (hhi i)]
          congr 1
          by_cases h : i = i0
          · rw [if_pos h, if_pos (by rw [h])]
          · rw [if_neg h, if_neg (fun hh => h (hx.injective hh))]
        have hm0 := hmul i0
        refine ih _ ?_ (ins_mono ht hr1 hr2.le) (fun i => by rw [ins_low (Nat.zero_le r)]; exact hlo i) hhi' ?_ rfl
        · rw [← hd]
          refine Finset.sum_lt_sum (fun i _ => by rw [hmi]; omega) ⟨i0, Finset.mem_univ _, ?_⟩
          rw [hmi, if_pos rfl]
          omega
        · intro i
          rw [hmi]
          have := hmul i
          split
          · rename_i h; subst h; omega
          · omega

/-- Schoenberg–Whitney: the collocation matrix of interior points, each inside the support of its basis function, is regular. -/
theorem schoenberg_whitney {k : ℕ} {t : ℕ → K} (ht : Monotone t) {p : ℕ} (hp : 1 ≤ p) {x : Fin k → K} (hx : StrictMono x)
    (hlo : ∀ i, t 0 < x i) (hhi : ∀ i, ∃ N, x i < t N) (hmul : ∀ i, mult t (x i) ≤ p) (J : Fin k → ℕ) (hJ : StrictMono J)
    (hin : Inside t p J x) : 0 < (colloc t p J x).det :=
  (total_positivity ht hp hx hlo hhi hmul J hJ).2 hin

end Splinepy.Boehm
