import Mathlib.Algebra.BigOperators.Ring.Finset
import Verif.Props.Nnls

/-!
# The non-negative least squares routine returns the optimum

The invariant of the loops of `nnls`: the columns of the matrix and the right hand side have the inner products of the given ones (all changes are orthogonal transformations), the passive
columns are upper triangular with a diagonal without zeros, `index` is a permutation.
-/

namespace Splinepy.Lsq

variable {K : Type} [Field K] [LinearOrder K] [IsStrictOrderedRing K]

/-! ## Invariant -/

/-- what holds in all rounds; `A` and `B` are the given matrix and right hand side -/
structure Base (m n : ℕ) (A : ℕ → ℕ → K) (B : ℕ → K) (s : State K) : Prop where
  cols : s.nsetp ≤ n
  rows : s.nsetp ≤ m
  range : ∀ p, p < n → s.index p < n
  inj : ∀ p q, p < n → q < n → s.index p = s.index q → p = q
  gram : ∀ j k, j < n → k < n → dotFrom 0 m (s.a j) (s.a k) = dotFrom 0 m (A j) (A k)
  gramB : ∀ j, j < n → dotFrom 0 m (s.a j) s.b = dotFrom 0 m (A j) B
  gramBB : dotFrom 0 m s.b s.b = dotFrom 0 m B B
  tri : ∀ p, p < s.nsetp → ∀ i, p < i → i < m → s.a (s.index p) i = 0
  diag : ∀ p, p < s.nsetp → s.a (s.index p) p ≠ 0
  nonneg : ∀ j, j < n → 0 ≤ s.x j
  active : ∀ p, s.nsetp ≤ p → p < n → s.x (s.index p) = 0

/-- `x` solves the least squares problem of the passive columns and is positive there -/
structure Fitted (s : State K) : Prop where
  pos : ∀ p, p < s.nsetp → 0 < s.x (s.index p)
  fit : ∀ i, i < s.nsetp → ∑ p ∈ Finset.range s.nsetp, s.x (s.index p) * s.a (s.index p) i = s.b i

/-- what holds at the places of the routine -/
def At (m n : ℕ) (s : State K) : Prop :=
  match s.loc with
  | .outer => Fitted s
  | .test => Fitted s ∧ s.nsetp < n ∧ s.nsetp < m ∧ ∀ p, s.nsetp ≤ p → p < n → s.w (s.index p) = dotFrom s.nsetp m (s.a (s.index p)) s.b
  | .solve => (∀ i, i < s.nsetp → s.z i = s.b i) ∧ ∀ p, p < s.nsetp → 0 < s.x (s.index p) ∨ p + 1 = s.nsetp ∧ 0 < s.z p / s.a (s.index p) p
  | .delete jj => jj < s.nsetp
  | .done mode => mode = 1 → Fitted s ∧ ∀ p, s.nsetp ≤ p → p < n → dotFrom s.nsetp m (s.a (s.index p)) s.b ≤ 0

omit [LinearOrder K] [IsStrictOrderedRing K] in
/-- a loop that changes each of its array elements once -/
theorem fold_update {β : Type} (f : ℕ → ℕ) (g : ℕ → β → β) (a n : ℕ) (w : ℕ → β) (hf : ∀ p q, a ≤ p → p < a + n → a ≤ q → q < a + n → f p = f q → p = q) :
    (∀ p, a ≤ p → p < a + n → (List.range' a n).foldl (fun w iz => Function.update w (f iz) (g iz (w (f iz)))) w (f p) = g p (w (f p))) ∧
    ∀ k, (∀ p, a ≤ p → p < a + n → f p ≠ k) → (List.range' a n).foldl (fun w iz => Function.update w (f iz) (g iz (w (f iz)))) w k = w k := by
  have h := fold_inv (fun (w : ℕ → β) iz => Function.update w (f iz) (g iz (w (f iz))))
    (fun j v => (∀ p, a ≤ p → p < j → v (f p) = g p (w (f p))) ∧ ∀ k, (∀ p, a ≤ p → p < j → f p ≠ k) → v k = w k) a n w
    ⟨fun p h1 h2 => absurd h2 (by omega), fun _ _ => rfl⟩ ?_
  · exact h
  · rintro j v hj1 hj2 ⟨h1, h2⟩
    refine ⟨fun p hp1 hp2 => ?_, fun k hk => ?_⟩
    · by_cases he : p = j
      · subst he
        rw [Function.update_self, h2]
        intro p' h3 h4 h5
        have := hf p' p h3 (by omega) hp1 hj2 h5
        omega
      · rw [Function.update_of_ne, h1 p hp1 (by omega)]
        intro h5
        exact he (hf p j hp1 (by omega) hj1 hj2 h5)
    · rw [Function.update_of_ne (fun h => hk j hj1 (by omega) h.symm)]
      exact h2 k fun p hp1 hp2 => hk p hp1 (by omega)

omit [LinearOrder K] [IsStrictOrderedRing K] in
/-- the positions reach all columns -/
theorem position {n : ℕ} {index : ℕ → ℕ} (hr : ∀ p, p < n → index p < n) (hi : ∀ p q, p < n → q < n → index p = index q → p = q) {k : ℕ} (hk : k < n) :
    ∃ p, p < n ∧ index p = k := by
  obtain ⟨p, hp, he⟩ := Finset.surj_on_of_inj_on_of_card_le (s := Finset.range n) (t := Finset.range n) (fun p _ => index p)
    (fun p hp => Finset.mem_range.2 (hr p (Finset.mem_range.1 hp)))
    (fun p q hp hq h => hi p q (Finset.mem_range.1 hp) (Finset.mem_range.1 hq) h) le_rfl k (Finset.mem_range.2 hk)
  exact ⟨p, Finset.mem_range.1 hp, he.symm⟩

omit [IsStrictOrderedRing K] in
theorem outer_inv {m n : ℕ} {A : ℕ → ℕ → K} {B : ℕ → K} {s : State K} (hb : Base m n A B s) (hl : Fitted s) :
    Base m n A B (outer m n s) ∧ At m n (outer m n s) := by
  unfold outer
  by_cases hc : n ≤ s.nsetp ∨ m ≤ s.nsetp
  · rw [if_pos hc]
    refine ⟨⟨hb.cols, hb.rows, hb.range, hb.inj, hb.gram, hb.gramB, hb.gramBB, hb.tri, hb.diag, hb.nonneg, hb.active⟩, fun _ => ⟨⟨hl.pos, hl.fit⟩, fun p h1 h2 => ?_⟩⟩
    simp only at h1 ⊢
    refine (Finset.sum_eq_zero fun i hi => ?_).le
    have := Finset.mem_Ico.1 hi
    omega
  · rw [if_neg hc]
    push Not at hc
    refine ⟨⟨hb.cols, hb.rows, hb.range, hb.inj, hb.gram, hb.gramB, hb.gramBB, hb.tri, hb.diag, hb.nonneg, hb.active⟩, ⟨hl.pos, hl.fit⟩, hc.1, hc.2, fun p h1 h2 => ?_⟩
    simp only at h1 ⊢
    have := (fold_update s.index (fun iz _ => dotFrom s.nsetp m (s.a (s.index iz)) s.b) s.nsetp (n - s.nsetp) s.w
      fun p q h1 h2 h3 h4 h5 => hb.inj p q (by omega) (by omega) h5).1 p h1 (by omega)
    exact this

theorem test_inv {sqrt : K → K} (hs : Spec.SquareRoot sqrt) {m n : ℕ} {A : ℕ → ℕ → K} {B : ℕ → K} {s : State K} (hb : Base m n A B s) (hl : s.loc = .test) (ha : At m n s) :
    Base m n A B (test sqrt m n s) ∧ At m n (test sqrt m n s) := by
  unfold At at ha
  rw [hl] at ha
  obtain ⟨hfit, hn, hm, hw⟩ := ha
  obtain ⟨hst0, hst1⟩ := steepest_spec n s
  unfold test
  cases hst : (steepest n s).2 with
  | none =>
    refine ⟨⟨hb.cols, hb.rows, hb.range, hb.inj, hb.gram, hb.gramB, hb.gramBB, hb.tri, hb.diag, hb.nonneg, hb.active⟩, fun _ => ⟨⟨hfit.pos, hfit.fit⟩, fun p h1 h2 => ?_⟩⟩
    rw [← hw p h1 h2]
    exact hst0 hst p h1 h2
  | some iz =>
    obtain ⟨hz1, hz2, hz3⟩ := hst1 iz hst
    simp only
    obtain ⟨p, hp⟩ : ∃ p, p = s.nsetp := ⟨_, rfl⟩
    obtain ⟨j, hj⟩ : ∃ j, j = s.index iz := ⟨_, rfl⟩
    rw [← hp, ← hj]
    have H := house hs (hp ▸ hm : p < m) (s.a j)
    obtain ⟨u, hu⟩ : ∃ u, u = (construct sqrt p m (s.a j)).1 := ⟨_, rfl⟩
    obtain ⟨up, hup⟩ : ∃ up, up = (construct sqrt p m (s.a j)).2 := ⟨_, rfl⟩
    rw [← hu, ← hup] at H ⊢
    obtain ⟨T, hT⟩ : ∃ T, T = reflect p m u up := ⟨_, rfl⟩
    have hTz : reflect p m u up s.b = T s.b := by rw [hT]
    rw [← hT] at H
    rw [hTz]
    have hpm : p < m := hp ▸ hm
    have hpn : p < n := hp ▸ hn
    -- the dual variable is the product of the new pivot and the new right hand side
    have hprod : 0 < u p * T s.b p := by
      have h1 : dotFrom p m (T (s.a j)) (T s.b) = u p * T s.b p := by
        rw [dot_split hpm, H.image p le_rfl hpm, if_pos rfl, Finset.sum_eq_zero, add_zero]
        intro i hi
        obtain ⟨h1, h2⟩ := Finset.mem_Ico.1 hi
        rw [H.image i (by omega) h2, if_neg (by omega), zero_mul]
      rw [← h1, H.isometry, hp, hj, ← hw iz hz1 hz2]
      exact hz3
    have hu0 : u p ≠ 0 := by rintro h; rw [h, zero_mul] at hprod; exact lt_irrefl _ hprod
    have hdiv : 0 < T s.b p / u p := by
      have : T s.b p / u p = u p * T s.b p / (u p * u p) := by field_simp
      rw [this]
      exact div_pos hprod (mul_self_pos.2 hu0)
    have hacc : accepted sqrt p u (T s.b) = true := by
      unfold accepted
      simp only
      rw [if_neg]
      · simpa using hdiv
      · have := abs_pos.2 hu0
        rw [not_le]
        linarith
    rw [if_pos hacc]
    unfold add
    simp only
    rw [← hp, ← hj]
    obtain ⟨ind, hind⟩ : ∃ ind, ind = Function.update (Function.update s.index iz (s.index p)) p j := ⟨_, rfl⟩
    rw [← hind]
    have ind_p : ind p = j := by rw [hind, Function.update_self]
    have ind_iz : iz ≠ p → ind iz = s.index p := fun h => by rw [hind, Function.update_of_ne h, Function.update_self]
    have ind_o : ∀ q, q ≠ p → q ≠ iz → ind q = s.index q := fun q h1 h2 => by rw [hind, Function.update_of_ne h1, Function.update_of_ne h2]
    have hrange : ∀ q, q < n → ind q < n := by
      intro q hq
      by_cases h1 : q = p
      · rw [h1, ind_p, hj]; exact hb.range iz hz2
      · by_cases h2 : q = iz
        · rw [h2, ind_iz (h2 ▸ h1)]; exact hb.range p hpn
        · rw [ind_o q h1 h2]; exact hb.range q hq
    have hback : ∀ q, q < n → ∃ q', q' < n ∧ ind q = s.index q' ∧ (q = p → q' = iz) ∧ (q = iz → q' = p) ∧ (q ≠ p → q ≠ iz → q' = q) := by
      intro q hq
      by_cases h1 : q = p
      · refine ⟨iz, hz2, by rw [h1, ind_p, hj], fun _ => rfl, fun h => by omega, fun h => absurd h1 h⟩
      · by_cases h2 : q = iz
        · exact ⟨p, hpn, by rw [h2, ind_iz (h2 ▸ h1)], fun h => absurd h h1, fun _ => rfl, fun _ h => absurd h2 h⟩
        · exact ⟨q, hq, ind_o q h1 h2, fun h => absurd h h1, fun h => absurd h h2, fun _ _ => rfl⟩
    have hinj : ∀ q r, q < n → r < n → ind q = ind r → q = r := by
      intro q r hq hr he
      obtain ⟨q', hq', e1, q1, q2, q3⟩ := hback q hq
      obtain ⟨r', hr', e2, r1, r2, r3⟩ := hback r hr
      have := hb.inj q' r' hq' hr' (by rw [← e1, ← e2, he])
      clear e1 e2 he
      by_cases a1 : q = p <;> by_cases a2 : q = iz <;> by_cases a3 : r = p <;> by_cases a4 : r = iz <;> omega
    -- the columns
    obtain ⟨a1, ha1⟩ : ∃ a1, a1 = (List.range' (p + 1) (n - (p + 1))).foldl (fun a jz => Function.update a (ind jz) (reflect p m u up (a (ind jz)))) (Function.update s.a j u) := ⟨_, rfl⟩
    rw [← ha1]
    rw [← hT] at ha1
    obtain ⟨f1, f2⟩ := fold_update (β := ℕ → K) ind (fun _ c => T c) (p + 1) (n - (p + 1)) (Function.update s.a j u)
      fun q r h1 h2 h3 h4 h5 => hinj q r (by omega) (by omega) h5
    rw [← ha1] at f1 f2
    have col_j : a1 j = u := by
      rw [f2 j, Function.update_self]
      intro q h1 h2 h3
      rw [← ind_p] at h3
      have := hinj q p (by omega) hpn h3
      omega
    have col_late : ∀ q, p < q → q < n → a1 (ind q) = T (s.a (ind q)) := by
      intro q h1 h2
      rw [f1 q h1 (by omega), Function.update_of_ne]
      rw [← ind_p]
      intro h3
      have := hinj q p h2 hpn h3
      omega
    have col_early : ∀ q, q < p → a1 (s.index q) = s.a (s.index q) := by
      intro q h1
      rw [f2, Function.update_of_ne]
      · rw [hj]; intro h3
        have := hb.inj q iz (by omega) hz2 h3
        omega
      · intro r h3 h4 h5
        rw [← ind_o q (by omega) (by omega)] at h5
        have := hinj r q (by omega) (by omega) h5
        omega
    obtain ⟨a2, ha2⟩ : ∃ a2, a2 = Function.update a1 j fun i => if p < i ∧ i < m then 0 else a1 j i := ⟨_, rfl⟩
    rw [← ha2]
    have hcol : ∀ k, k < n → ∀ i, i < m → a2 k i = T (s.a k) i := by
      intro k hk i hi
      obtain ⟨q, hq, rfl⟩ := position hrange hinj hk
      by_cases h1 : q = p
      · rw [h1, ind_p, ha2, Function.update_self, col_j]
        by_cases h2 : p < i ∧ i < m
        · rw [if_pos h2, H.image i (by omega) hi, if_neg (by omega)]
        · rw [if_neg h2]
          by_cases h3 : i = p
          · rw [h3, H.image p le_rfl hpm, if_pos rfl]
          · rw [H.others i h3, H.outside _ i (by omega)]
      · have hne : ind q ≠ j := by
          rw [← ind_p]; intro h; exact h1 (hinj q p hq hpn h)
        rw [ha2, Function.update_of_ne hne]
        by_cases h2 : p < q
        · rw [col_late q h2 hq]
        · rw [ind_o q h1 (by omega), col_early q (by omega), H.fixed]
          intro r h3 h4
          exact hb.tri q (by omega) r (by omega) h4
    have hiso : ∀ c d, dotFrom 0 m (T c) (T d) = dotFrom 0 m c d := by
      intro c d
      rw [dot_join hpm.le (T c), dot_join hpm.le c, H.isometry]
      congr 1
      exact dot_congr fun i _ h => ⟨H.outside c i (Or.inl h), H.outside d i (Or.inl h)⟩
    have early : ∀ q, q < p → a2 (ind q) = s.a (s.index q) := by
      intro q hq
      have h1 : ind q = s.index q := ind_o q (by omega) (by omega)
      rw [ha2, Function.update_of_ne, h1, col_early q hq]
      rw [← ind_p]; intro h
      have := hinj q p (by omega) hpn h
      omega
    have a2p : ∀ i, a2 j i = if p < i ∧ i < m then 0 else u i := fun i => by rw [ha2, Function.update_self, col_j]
    refine ⟨⟨by simpa using hpn, by simpa using hpm, hrange, hinj, ?_, ?_, ?_, ?_, ?_, hb.nonneg, ?_⟩, ?_⟩
    · intro k l hk hl'
      show dotFrom 0 m (a2 k) (a2 l) = _
      rw [dot_congr fun i _ hi => ⟨hcol k hk i hi, hcol l hl' i hi⟩, hiso, hb.gram k l hk hl']
    · intro k hk
      show dotFrom 0 m (a2 k) (T s.b) = _
      rw [dot_congr (v' := T s.b) fun i _ hi => ⟨hcol k hk i hi, rfl⟩, hiso, hb.gramB k hk]
    · show dotFrom 0 m (T s.b) (T s.b) = _
      rw [hiso, hb.gramBB]
    · intro q hq i h1 h2
      show a2 (ind q) i = 0
      have hq' : q < p + 1 := hq
      by_cases h3 : q = p
      · rw [h3, ind_p, a2p, if_pos ⟨by omega, h2⟩]
      · rw [early q (by omega)]
        exact hb.tri q (by omega) i h1 h2
    · intro q hq
      show a2 (ind q) q ≠ 0
      have hq' : q < p + 1 := hq
      by_cases h3 : q = p
      · rw [h3, ind_p, a2p, if_neg (by omega)]; exact hu0
      · rw [early q (by omega)]
        exact hb.diag q (by omega)
    · intro q h1 h2
      show s.x (ind q) = 0
      have h1' : p + 1 ≤ q := h1
      by_cases h3 : q = iz
      · rw [h3, ind_iz (by omega)]; exact hb.active p (by omega) hpn
      · rw [ind_o q (by omega) h3]; exact hb.active q (by omega) h2
    · refine ⟨fun _ _ => rfl, fun q hq => ?_⟩
      have hq' : q < p + 1 := hq
      by_cases h3 : q = p
      · right
        refine ⟨by rw [h3], ?_⟩
        show 0 < T s.b q / a2 (ind q) q
        rw [h3, ind_p, a2p, if_neg (by omega)]; exact hdiv
      · left
        show 0 < s.x (ind q)
        rw [ind_o q h3 (by omega)]
        exact hfit.pos q (by omega)

/-! ## The triangular system -/

omit [LinearOrder K] [IsStrictOrderedRing K] in
theorem backward_above (a : ℕ → ℕ → K) (index : ℕ → ℕ) : ∀ (k : ℕ) (z : ℕ → K) (i : ℕ), k ≤ i → backward a index k z i = z i := by
  intro k
  induction k with
  | zero => intro z i _; rfl
  | succ k ih =>
    intro z i hi
    unfold backward
    rw [ih _ _ (by omega), if_neg (by omega), if_neg (by omega)]

omit [LinearOrder K] [IsStrictOrderedRing K] in
theorem backward_last (a : ℕ → ℕ → K) (index : ℕ → ℕ) (k : ℕ) (z : ℕ → K) : backward a index (k + 1) z k = z k / a (index k) k := by
  unfold backward
  rw [backward_above _ _ _ _ _ le_rfl, if_pos rfl]

omit [LinearOrder K] [IsStrictOrderedRing K] in
/-- the triangular system is solved -/
theorem backward_solves (a : ℕ → ℕ → K) (index : ℕ → ℕ) : ∀ (k : ℕ) (z : ℕ → K), (∀ p, p < k → ∀ i, p < i → i < k → a (index p) i = 0) → (∀ p, p < k → a (index p) p ≠ 0) →
    ∀ i, i < k → ∑ p ∈ Finset.range k, backward a index k z p * a (index p) i = z i := by
  intro k
  induction k with
  | zero => intro z _ _ i hi; omega
  | succ k ih =>
    intro z h1 h2 i hi
    rw [Finset.sum_range_succ, backward_last]
    have e : ∀ p ∈ Finset.range k, backward a index (k + 1) z p * a (index p) i =
        backward a index k (fun i => if i = k then z k / a (index k) k else if i < k then z i - z k / a (index k) k * a (index k) i else z i) p * a (index p) i := by
      intro p _; rfl
    rw [Finset.sum_congr rfl e]
    by_cases hk : i = k
    · subst hk
      rw [Finset.sum_eq_zero]
      · have := h2 i (by omega)
        field_simp; ring
      · intro p hp
        rw [h1 p (by have := Finset.mem_range.1 hp; omega) i (Finset.mem_range.1 hp) (by omega), mul_zero]
    · rw [ih _ (fun p hp i h3 h4 => h1 p (by omega) i h3 (by omega)) (fun p hp => h2 p (by omega)) i (by omega)]
      rw [if_neg hk, if_pos (by omega)]
      ring

/-- the step length -/
theorem limit_spec {s : State K} (hx : ∀ p, p < s.nsetp → 0 ≤ s.x (s.index p)) (hz : ∀ p, p < s.nsetp → s.z p ≤ 0 → 0 < s.x (s.index p)) :
    0 ≤ (limit s).1 ∧ (limit s).1 ≤ 1 ∧ ((limit s).2 = none → (limit s).1 = 1 ∧ ∀ p, p < s.nsetp → 0 < s.z p) ∧ (∀ q, (limit s).2 = some q → q < s.nsetp) ∧
    ∀ p, p < s.nsetp → 0 ≤ (1 - (limit s).1) * s.x (s.index p) + (limit s).1 * s.z p := by
  have h := fold_inv (fun (r : K × Option ℕ) ip => if s.z ip > 0 then r
      else if r.1 < -s.x (s.index ip) / (s.z ip - s.x (s.index ip)) then r else (-s.x (s.index ip) / (s.z ip - s.x (s.index ip)), some ip))
    (fun j r => 0 ≤ r.1 ∧ r.1 ≤ 1 ∧ (r.2 = none → r.1 = 1 ∧ ∀ p, p < j → 0 < s.z p) ∧ (∀ q, r.2 = some q → q < j) ∧
      ∀ p, p < j → s.z p ≤ 0 → r.1 ≤ -s.x (s.index p) / (s.z p - s.x (s.index p))) 0 s.nsetp (1, none)
    ⟨zero_le_one, le_rfl, fun _ => ⟨rfl, fun p hp => absurd hp (by omega)⟩, fun q hq => by simp at hq, fun p hp => absurd hp (by omega)⟩ ?_
  · rw [Nat.zero_add, ← List.range_eq_range'] at h
    change 0 ≤ (limit s).1 ∧ (limit s).1 ≤ 1 ∧ ((limit s).2 = none → (limit s).1 = 1 ∧ ∀ p, p < s.nsetp → 0 < s.z p) ∧ (∀ q, (limit s).2 = some q → q < s.nsetp) ∧
      ∀ p, p < s.nsetp → s.z p ≤ 0 → (limit s).1 ≤ -s.x (s.index p) / (s.z p - s.x (s.index p)) at h
    obtain ⟨h1, h2, h3, h4, h5⟩ := h
    refine ⟨h1, h2, h3, h4, fun p hp => ?_⟩
    by_cases hzp : 0 < s.z p
    · exact add_nonneg (mul_nonneg (by linarith) (hx p hp)) (mul_nonneg h1 hzp.le)
    · push Not at hzp
      have h6 := h5 p hp hzp
      have h7 := hz p hp hzp
      have h8 : 0 < s.x (s.index p) - s.z p := by linarith
      have h9 : -s.x (s.index p) / (s.z p - s.x (s.index p)) = s.x (s.index p) / (s.x (s.index p) - s.z p) := by
        rw [← neg_sub (s.x (s.index p)) (s.z p), neg_div_neg_eq]
      rw [h9, le_div_iff₀ h8] at h6
      have : (1 - (limit s).1) * s.x (s.index p) + (limit s).1 * s.z p = s.x (s.index p) - (limit s).1 * (s.x (s.index p) - s.z p) := by ring
      rw [this]
      linarith
  · rintro j ⟨r1, r2⟩ hj1 hj2 ⟨h1, h2, h3, h4, h5⟩
    simp only at h1 h2 h3 h4 h5 ⊢
    by_cases hzj : s.z j > 0
    · rw [if_pos hzj]
      refine ⟨h1, h2, fun hn => ⟨(h3 hn).1, fun p hp => ?_⟩, fun q hq => by have := h4 q hq; omega, fun p hp hzp => ?_⟩
      · rcases Nat.lt_succ_iff_lt_or_eq.1 hp with h | rfl
        · exact (h3 hn).2 p h
        · exact hzj
      · rcases Nat.lt_succ_iff_lt_or_eq.1 hp with h | rfl
        · exact h5 p h hzp
        · exact absurd hzp (not_le.2 hzj)
    · rw [if_neg hzj]
      push Not at hzj
      have h7 := hz j (by omega) hzj
      obtain ⟨t, ht⟩ : ∃ t, t = -s.x (s.index j) / (s.z j - s.x (s.index j)) := ⟨_, rfl⟩
      have h8 : 0 < s.x (s.index j) - s.z j := by linarith
      have h9 : t = s.x (s.index j) / (s.x (s.index j) - s.z j) := by
        rw [ht, ← neg_sub (s.x (s.index j)) (s.z j), neg_div_neg_eq]
      have ht0 : 0 ≤ t := by rw [h9]; exact div_nonneg h7.le h8.le
      have ht1 : t ≤ 1 := by rw [h9, div_le_one h8]; linarith
      rw [← ht]
      by_cases hc : r1 < t
      · rw [if_pos hc]
        refine ⟨h1, h2, fun hn => absurd hc (by rw [(h3 hn).1]; exact not_lt.2 ht1), fun q hq => by have := h4 q hq; omega, fun p hp hzp => ?_⟩
        rcases Nat.lt_succ_iff_lt_or_eq.1 hp with h | rfl
        · exact h5 p h hzp
        · rw [← ht]; exact hc.le
      · rw [if_neg hc]
        push Not at hc
        refine ⟨ht0, ht1, fun hn => by simp at hn, fun q hq => ?_, fun p hp hzp => ?_⟩
        · simp only [Option.some.injEq] at hq; omega
        · rcases Nat.lt_succ_iff_lt_or_eq.1 hp with h | rfl
          · exact hc.trans (h5 p h hzp)
          · rw [← ht]

/-- In a state of the routine the solution of the triangular system and `x` do not coincide where the step length divides by their difference. -/
theorem solve_defined {m n : ℕ} {s : State K} (hl : s.loc = .solve) (ha : At m n s) (p : ℕ) (hp : p < s.nsetp)
    (hz : backward s.a s.index s.nsetp s.z p ≤ 0) : 0 < s.x (s.index p) := by
  unfold At at ha
  rw [hl] at ha
  rcases ha.2 p hp with h | ⟨h1, h2⟩
  · exact h
  · rw [← h1, backward_last] at hz
    exact absurd hz (not_le.2 h2)

theorem solve_inv {m n : ℕ} {A : ℕ → ℕ → K} {B : ℕ → K} {s : State K} (hb : Base m n A B s) (hl : s.loc = .solve) (ha : At m n s) :
    Base m n A B (solve n s) ∧ At m n (solve n s) := by
  have hdef := solve_defined hl ha
  unfold At at ha
  rw [hl] at ha
  obtain ⟨hzb, hpos⟩ := ha
  unfold solve
  simp only
  by_cases hc : s.iter + 1 > 3 * n
  · rw [if_pos hc]
    exact ⟨⟨hb.cols, hb.rows, hb.range, hb.inj, hb.gram, hb.gramB, hb.gramBB, hb.tri, hb.diag, hb.nonneg, hb.active⟩, fun h => absurd h (by decide)⟩
  rw [if_neg hc]
  obtain ⟨t, ht⟩ : ∃ t : State K, t = { s with z := backward s.a s.index s.nsetp s.z, iter := s.iter + 1 } := ⟨_, rfl⟩
  rw [← ht]
  have tz : t.z = backward s.a s.index s.nsetp s.z := by rw [ht]
  have tx : t.x = s.x := by rw [ht]
  have tn : t.nsetp = s.nsetp := by rw [ht]
  have ti : t.index = s.index := by rw [ht]
  have ta : t.a = s.a := by rw [ht]
  have tb : t.b = s.b := by rw [ht]
  have L := limit_spec (s := t) (by rw [tn, tx, ti]; exact fun p hp => hb.nonneg _ (hb.range p (lt_of_lt_of_le hp hb.cols)))
    (by rw [tn, tz, tx, ti]; exact hdef)
  obtain ⟨al, hal⟩ : ∃ al, al = (limit t).1 := ⟨_, rfl⟩
  rw [← hal, tn, tz, tx, ti] at L
  obtain ⟨l1, l2, l3, l4, l5⟩ := L
  obtain ⟨x', hx'⟩ : ∃ x', x' = (List.range s.nsetp).foldl (fun x ip => Function.update x (s.index ip) ((1 - al) * x (s.index ip) + al * backward s.a s.index s.nsetp s.z ip)) s.x := ⟨_, rfl⟩
  rw [← hal, ← hx']
  have F := fold_update s.index (fun ip v => (1 - al) * v + al * backward s.a s.index s.nsetp s.z ip) 0 s.nsetp s.x
    fun p q _ h2 _ h4 h5 => hb.inj p q (by have := hb.cols; omega) (by have := hb.cols; omega) h5
  rw [← List.range_eq_range', ← hx'] at F
  obtain ⟨f1, f2⟩ := F
  have fp : ∀ p, p < s.nsetp → x' (s.index p) = (1 - al) * s.x (s.index p) + al * backward s.a s.index s.nsetp s.z p := fun p hp => f1 p (Nat.zero_le _) (by omega)
  have fq : ∀ p, s.nsetp ≤ p → p < n → x' (s.index p) = 0 := by
    intro p h1 h2
    rw [f2, hb.active p h1 h2]
    intro q _ h3 h4
    have := hb.inj q p (by have := hb.cols; omega) h2 h4
    omega
  have hx0 : ∀ j, j < n → 0 ≤ x' j := by
    intro j hj
    obtain ⟨p, hp, rfl⟩ := position hb.range hb.inj hj
    by_cases h : p < s.nsetp
    · rw [fp p h]; exact l5 p h
    · exact (fq p (by omega) hp).ge
  cases hr : (limit t).2 with
  | none =>
    obtain ⟨e1, e2⟩ := l3 hr
    refine ⟨⟨hb.cols, hb.rows, hb.range, hb.inj, hb.gram, hb.gramB, hb.gramBB, hb.tri, hb.diag, hx0, fq⟩, ⟨fun p hp => ?_, fun i hi => ?_⟩⟩
    · show 0 < x' (s.index p)
      rw [fp p hp, e1, sub_self, zero_mul, zero_add, one_mul]
      exact e2 p hp
    · show ∑ p ∈ Finset.range s.nsetp, x' (s.index p) * s.a (s.index p) i = s.b i
      have hi' : i < s.nsetp := hi
      rw [← hzb i hi', ← backward_solves s.a s.index s.nsetp s.z (fun p hp r h1 h2 => hb.tri p hp r h1 (lt_of_lt_of_le h2 hb.rows)) hb.diag i hi']
      refine Finset.sum_congr rfl fun p hp => ?_
      rw [fp p (Finset.mem_range.1 hp), e1]; ring
  | some jj =>
    exact ⟨⟨hb.cols, hb.rows, hb.range, hb.inj, hb.gram, hb.gramB, hb.gramBB, hb.tri, hb.diag, hx0, fq⟩, l4 jj hr⟩

/-! ## Deletion of a column -/

/-- the state in the loop of the deletion, before the position `i`; `s` is the state at its begin and `jj` the position of the column that is deleted -/
structure Shifting (m n jj : ℕ) (A : ℕ → ℕ → K) (B : ℕ → K) (s : State K) (i : ℕ) (t : State K) : Prop where
  nsetp : t.nsetp = s.nsetp
  x : t.x = s.x
  index : ∀ q, t.index q = if jj ≤ q ∧ q < i then s.index (q + 1) else s.index q
  gram : ∀ j k, j < n → k < n → dotFrom 0 m (t.a j) (t.a k) = dotFrom 0 m (A j) (A k)
  gramB : ∀ j, j < n → dotFrom 0 m (t.a j) t.b = dotFrom 0 m (A j) B
  gramBB : dotFrom 0 m t.b t.b = dotFrom 0 m B B
  tri : ∀ q, q < i → ∀ r, q < r → r < m → t.a (t.index q) r = 0
  diag : ∀ q, q < i → t.a (t.index q) q ≠ 0
  tri' : ∀ q, i < q → q < s.nsetp → ∀ r, q < r → r < m → t.a (s.index q) r = 0
  diag' : ∀ q, i < q → q < s.nsetp → t.a (s.index q) q ≠ 0

theorem shift_inv {sqrt : K → K} (hs : Spec.SquareRoot sqrt) {m n jj : ℕ} {A : ℕ → ℕ → K} {B : ℕ → K} {s : State K} (hn : s.nsetp ≤ n) (hm : s.nsetp ≤ m)
    (hrange : ∀ p, p < n → s.index p < n) (hinj : ∀ p q, p < n → q < n → s.index p = s.index q → p = q) {i : ℕ} {t : State K} (hj : jj ≤ i) (hi : i + 1 < s.nsetp)
    (h : Shifting m n jj A B s i t) : Shifting m n jj A B s (i + 1) (shift sqrt n t i) := by
  have hii : t.index (i + 1) = s.index (i + 1) := by rw [h.index, if_neg (by omega)]
  obtain ⟨ii, hii'⟩ : ∃ ii, ii = s.index (i + 1) := ⟨_, rfl⟩
  obtain ⟨g, hg⟩ : ∃ g, g = rotg sqrt (t.a ii i) (t.a ii (i + 1)) := ⟨_, rfl⟩
  have R := rotation hs (t.a ii i) (t.a ii (i + 1))
  rw [← hg] at R
  obtain ⟨r1, r2, r3, r4⟩ := R
  have hd : t.a ii (i + 1) ≠ 0 := by rw [hii']; exact h.diag' (i + 1) (by omega) hi
  have sa : ∀ k, k < n → (shift sqrt n t i).a k = rot g.2.1 g.2.2 i (t.a k) := by
    intro k hk
    unfold shift
    simp only
    rw [hii, ← hii', ← hg]
    by_cases hk2 : k = ii
    · rw [if_pos hk2, hk2]
      funext r
      unfold rot
      by_cases e1 : r = i
      · rw [if_pos e1, if_pos e1, r2]
      · rw [if_neg e1, if_neg e1]
        by_cases e2 : r = i + 1
        · rw [if_pos e2, if_pos e2, r3]
        · rw [if_neg e2, if_neg e2]
    · rw [if_neg hk2, if_pos hk]
  have saii : ∀ r, (shift sqrt n t i).a ii r = if r = i then g.1 else if r = i + 1 then 0 else t.a ii r := by
    intro r
    unfold shift
    simp only
    rw [hii, ← hii', ← hg, if_pos rfl]
  have sb : (shift sqrt n t i).b = rot g.2.1 g.2.2 i t.b := by
    unfold shift
    simp only
    rw [hii, ← hii', ← hg]
  have sidx : (shift sqrt n t i).index = Function.update t.index i ii := by
    unfold shift
    simp only
    rw [hii, ← hii']
  have old : ∀ q, q < i → (shift sqrt n t i).index q = t.index q ∧ t.index q < n := by
    intro q hq
    refine ⟨by rw [sidx, Function.update_of_ne (by omega)], ?_⟩
    rw [h.index]
    split_ifs
    · exact hrange _ (by omega)
    · exact hrange _ (by omega)
  have him : i + 1 < m := by omega
  refine ⟨h.nsetp, h.x, fun q => ?_, fun j k h1 h2 => ?_, fun j h1 => ?_, ?_, fun q hq r h1 h2 => ?_, fun q hq => ?_, fun q hq h0 r h1 h2 => ?_, fun q hq h0 => ?_⟩
  · rw [sidx]
    by_cases hq : q = i
    · rw [hq, Function.update_self, if_pos ⟨hj, by omega⟩, hii']
    · rw [Function.update_of_ne hq, h.index]
      by_cases h1 : jj ≤ q ∧ q < i
      · rw [if_pos h1, if_pos ⟨h1.1, by omega⟩]
      · rw [if_neg h1, if_neg (by omega)]
  · rw [sa j h1, sa k h2, rot_dot r1 him, h.gram j k h1 h2]
  · rw [sa j h1, sb, rot_dot r1 him, h.gramB j h1]
  · rw [sb, rot_dot r1 him, h.gramBB]
  · by_cases hqi : q = i
    · have : (shift sqrt n t i).index q = ii := by rw [sidx, hqi, Function.update_self]
      rw [this, saii, if_neg (by omega)]
      by_cases e : r = i + 1
      · rw [if_pos e]
      · rw [if_neg e, hii']; exact h.tri' (i + 1) (by omega) hi r (by omega) h2
    · obtain ⟨e1, e2⟩ := old q (by omega)
      rw [e1, sa _ e2]
      have hz := h.tri q (by omega)
      unfold rot
      split_ifs
      · rw [hz i (by omega) (by omega), hz (i + 1) (by omega) (by omega)]; ring
      · rw [hz i (by omega) (by omega), hz (i + 1) (by omega) (by omega)]; ring
      · exact hz r h1 h2
  · by_cases hqi : q = i
    · have : (shift sqrt n t i).index q = ii := by rw [sidx, hqi, Function.update_self]
      rw [this, saii, if_pos hqi]
      exact r4 hd
    · obtain ⟨e1, e2⟩ := old q (by omega)
      rw [e1, sa _ e2]
      unfold rot
      rw [if_neg (by omega), if_neg (by omega)]
      exact h.diag q (by omega)
  · rw [sa _ (hrange q (by omega))]
    unfold rot
    rw [if_neg (by omega), if_neg (by omega)]
    exact h.tri' q (by omega) h0 r h1 h2
  · rw [sa _ (hrange q (by omega))]
    unfold rot
    rw [if_neg (by omega), if_neg (by omega)]
    exact h.diag' q (by omega) h0

theorem drop_inv {sqrt : K → K} (hs : Spec.SquareRoot sqrt) {m n jj : ℕ} {A : ℕ → ℕ → K} {B : ℕ → K} {s : State K} (hb : Base m n A B s) (hjj : jj < s.nsetp) :
    Base m n A B (drop sqrt n jj s) := by
  unfold drop
  simp only
  obtain ⟨s0, hs0⟩ : ∃ s0 : State K, s0 = { s with x := Function.update s.x (s.index jj) 0 } := ⟨_, rfl⟩
  rw [← hs0]
  have n0 : s0.nsetp = s.nsetp := by rw [hs0]
  have i0 : s0.index = s.index := by rw [hs0]
  have x0 : s0.x = Function.update s.x (s.index jj) 0 := by rw [hs0]
  have hc := hb.cols
  have hr := hb.rows
  have start : Shifting m n jj A B s0 jj s0 := by
    have a0 : s0.a = s.a := by rw [hs0]
    have b0 : s0.b = s.b := by rw [hs0]
    refine ⟨rfl, rfl, fun q => by rw [if_neg (by omega)], ?_, ?_, ?_, ?_, ?_, ?_, ?_⟩
    · rw [a0]; exact hb.gram
    · rw [a0, b0]; exact hb.gramB
    · rw [b0]; exact hb.gramBB
    · rw [a0, i0]; exact fun q hq => hb.tri q (by omega)
    · rw [a0, i0]; exact fun q hq => hb.diag q (by omega)
    · rw [a0, i0, n0]; exact fun q _ hq => hb.tri q hq
    · rw [a0, i0, n0]; exact fun q _ hq => hb.diag q hq
  have S := fold_inv (shift sqrt n) (fun i t => Shifting m n jj A B s0 i t) jj (s.nsetp - 1 - jj) s0 start
    fun i t h1 h2 h3 => shift_inv hs (by omega) (by omega) (by rw [i0]; exact hb.range) (by rw [i0]; exact hb.inj) h1 (by omega) h3
  have e : jj + (s.nsetp - 1 - jj) = s.nsetp - 1 := by omega
  rw [e] at S
  generalize (List.range' jj (s.nsetp - 1 - jj)).foldl (shift sqrt n) s0 = t at S
  have tn : t.nsetp = s.nsetp := S.nsetp.trans n0
  rw [tn]
  obtain ⟨ind, hind⟩ : ∃ ind, ind = Function.update t.index (s.nsetp - 1) (s.index jj) := ⟨_, rfl⟩
  rw [← hind]
  have hidx : ∀ q, ind q = s.index (if q = s.nsetp - 1 then jj else if jj ≤ q ∧ q < s.nsetp - 1 then q + 1 else q) := by
    intro q
    rw [hind]
    by_cases h1 : q = s.nsetp - 1
    · rw [h1, Function.update_self, if_pos rfl]
    · rw [Function.update_of_ne h1, if_neg h1, S.index, i0]
      split_ifs <;> rfl
  have hrange : ∀ p, p < n → ind p < n := by
    intro p hp
    rw [hidx]
    refine hb.range _ ?_
    split_ifs <;> omega
  have hinj : ∀ p q, p < n → q < n → ind p = ind q → p = q := by
    intro p q hp hq he
    rw [hidx, hidx] at he
    have := hb.inj _ _ (by split_ifs <;> omega) (by split_ifs <;> omega) he
    split_ifs at this <;> omega
  have tx : t.x = Function.update s.x (s.index jj) 0 := by rw [S.x, x0]
  have hx : ∀ j, j < n → 0 ≤ t.x j := by
    intro j hj
    rw [tx]
    by_cases h : j = s.index jj
    · rw [h, Function.update_self]
    · rw [Function.update_of_ne h]; exact hb.nonneg j hj
  have hact : ∀ p, s.nsetp - 1 ≤ p → p < n → t.x (ind p) = 0 := by
    intro p h1 h2
    rw [tx, hidx]
    by_cases h : p = s.nsetp - 1
    · rw [if_pos h, Function.update_self]
    · rw [if_neg h, if_neg (by omega)]
      by_cases h3 : s.index p = s.index jj
      · rw [h3, Function.update_self]
      · rw [Function.update_of_ne h3]; exact hb.active p (by omega) h2
  have hie : ∀ q, q < s.nsetp - 1 → ind q = t.index q := fun q hq => by rw [hind, Function.update_of_ne (by omega)]
  have htri : ∀ p, p < s.nsetp - 1 → ∀ i, p < i → i < m → t.a (ind p) i = 0 := fun p hp => by rw [hie p hp]; exact S.tri p hp
  have hdiag : ∀ p, p < s.nsetp - 1 → t.a (ind p) p ≠ 0 := fun p hp => by rw [hie p hp]; exact S.diag p hp
  exact ⟨by show s.nsetp - 1 ≤ n; omega, by show s.nsetp - 1 ≤ m; omega, hrange, hinj, S.gram, S.gramB, S.gramBB, htri, hdiag, hx, hact⟩

theorem delete_inv {sqrt : K → K} (hs : Spec.SquareRoot sqrt) {m n jj : ℕ} {A : ℕ → ℕ → K} {B : ℕ → K} {s : State K} (hb : Base m n A B s) (hjj : jj < s.nsetp) :
    Base m n A B (delete sqrt n jj s) ∧ At m n (delete sqrt n jj s) := by
  have hb := drop_inv hs hb hjj
  unfold delete
  simp only
  generalize drop sqrt n jj s = t at hb
  by_cases h0 : t.nsetp = 0
  · rw [if_pos h0]
    exact ⟨⟨hb.cols, hb.rows, hb.range, hb.inj, hb.gram, hb.gramB, hb.gramBB, hb.tri, hb.diag, hb.nonneg, hb.active⟩, fun h => absurd h (by decide)⟩
  · rw [if_neg h0]
    cases hf : (List.range t.nsetp).find? fun jj => decide (t.x (t.index jj) ≤ (0 : K)) with
    | some q =>
      exact ⟨⟨hb.cols, hb.rows, hb.range, hb.inj, hb.gram, hb.gramB, hb.gramBB, hb.tri, hb.diag, hb.nonneg, hb.active⟩, List.mem_range.1 (List.mem_of_find?_eq_some hf)⟩
    | none =>
      refine ⟨⟨hb.cols, hb.rows, hb.range, hb.inj, hb.gram, hb.gramB, hb.gramBB, hb.tri, hb.diag, hb.nonneg, hb.active⟩, fun _ _ => rfl, fun p hp => ?_⟩
      left
      have := List.find?_eq_none.1 hf p (List.mem_range.2 hp)
      simpa using this

/-! ## All rounds -/

/-- The invariant holds in all rounds. -/
theorem nnls_inv {sqrt : K → K} (hs : Spec.SquareRoot sqrt) (m n : ℕ) (A : ℕ → ℕ → K) (B : ℕ → K) (mem : State K) (hm : 0 < m) (hn : 0 < n) (k : ℕ) :
    Base m n A B (nnls sqrt m n A B mem k) ∧ At m n (nnls sqrt m n A B mem k) := by
  induction k with
  | zero =>
    unfold nnls initial
    rw [if_neg (by omega)]
    refine ⟨⟨Nat.zero_le _, Nat.zero_le _, fun p hp => hp, fun p q _ _ h => h, fun j k _ _ => rfl, fun j _ => rfl, rfl, fun p hp => absurd hp (Nat.not_lt_zero _),
      fun p hp => absurd hp (Nat.not_lt_zero _), fun j hj => ?_, fun p _ hp => ?_⟩, ⟨fun p hp => absurd hp (Nat.not_lt_zero _), fun p hp => absurd hp (Nat.not_lt_zero _)⟩⟩
    · simp [hj]
    · simp [hp]
  | succ k ih =>
    obtain ⟨hb, ha⟩ := ih
    unfold nnls
    generalize nnls sqrt m n A B mem k = s at hb ha ⊢
    unfold step
    cases hl : s.loc with
    | outer =>
      unfold At at ha
      rw [hl] at ha
      exact outer_inv hb ha
    | test => exact test_inv hs hb hl ha
    | solve => exact solve_inv hb hl ha
    | delete jj =>
      unfold At at ha
      rw [hl] at ha
      exact delete_inv hs hb ha
    | done k => exact ⟨hb, ha⟩

/-! ## The solution -/

omit [LinearOrder K] [IsStrictOrderedRing K] in
theorem dual_eq (m n : ℕ) (a : ℕ → ℕ → K) (b x : ℕ → K) (j : ℕ) :
    Spec.dual m n a b x j = dotFrom 0 m (a j) b - ∑ k ∈ Finset.range n, x k * dotFrom 0 m (a j) (a k) := by
  unfold Spec.dual Spec.image dotFrom
  rw [Finset.range_eq_Ico]
  simp only [mul_sub, Finset.sum_sub_distrib, Finset.mul_sum]
  congr 1
  rw [Finset.sum_comm]
  exact Finset.sum_congr rfl fun k _ => Finset.sum_congr rfl fun i _ => by ring

omit [LinearOrder K] [IsStrictOrderedRing K] in
theorem distSq_eq (m n : ℕ) (a : ℕ → ℕ → K) (b x : ℕ → K) :
    Spec.distSq m n a b x = dotFrom 0 m b b - ∑ j ∈ Finset.range n, x j * (dotFrom 0 m (a j) b + Spec.dual m n a b x j) := by
  have h1 : ∑ j ∈ Finset.range n, x j * (dotFrom 0 m (a j) b + Spec.dual m n a b x j) =
      ∑ i ∈ Finset.range m, Spec.image n a x i * (b i + (b i - Spec.image n a x i)) := by
    unfold Spec.dual dotFrom
    rw [Finset.range_eq_Ico, Finset.range_eq_Ico]
    simp only [← Finset.sum_add_distrib, Finset.mul_sum]
    rw [Finset.sum_comm]
    refine Finset.sum_congr rfl fun i _ => ?_
    show _ = (∑ j ∈ Finset.range n, x j * a j i) * (b i + (b i - Spec.image n a x i))
    rw [Finset.sum_mul, Finset.range_eq_Ico]
    exact Finset.sum_congr rfl fun j _ => by ring
  rw [h1]
  unfold Spec.distSq dotFrom
  rw [Finset.range_eq_Ico, ← Finset.sum_sub_distrib]
  exact Finset.sum_congr rfl fun i _ => by ring

omit [LinearOrder K] [IsStrictOrderedRing K] in
/-- sums over the columns in the order of the positions -/
theorem sum_positions {n : ℕ} {index : ℕ → ℕ} (hr : ∀ p, p < n → index p < n) (hi : ∀ p q, p < n → q < n → index p = index q → p = q) (f : ℕ → K) :
    ∑ p ∈ Finset.range n, f (index p) = ∑ j ∈ Finset.range n, f j := by
  refine Finset.sum_bij (fun p _ => index p) (fun p hp => Finset.mem_range.2 (hr p (Finset.mem_range.1 hp)))
    (fun p hp q hq h => hi p q (Finset.mem_range.1 hp) (Finset.mem_range.1 hq) h) (fun j hj => ?_) fun p _ => rfl
  obtain ⟨p, hp, he⟩ := position hr hi (Finset.mem_range.1 hj)
  exact ⟨p, Finset.mem_range.2 hp, he⟩

/-- The conditions of optimality suffice. -/
theorem optimal_of_dual {m n : ℕ} {A : ℕ → ℕ → K} {B x : ℕ → K} (hd : ∀ j, j < n → Spec.dual m n A B x j ≤ 0) (hc : ∀ j, j < n → x j * Spec.dual m n A B x j = 0)
    {y : ℕ → K} (hy : ∀ j, j < n → 0 ≤ y j) : Spec.distSq m n A B x ≤ Spec.distSq m n A B y := by
  have h1 : Spec.distSq m n A B y = Spec.distSq m n A B x + ∑ i ∈ Finset.range m, (Spec.image n A y i - Spec.image n A x i) * (Spec.image n A y i - Spec.image n A x i) -
      2 * ∑ j ∈ Finset.range n, (y j - x j) * Spec.dual m n A B x j := by
    have e : ∑ j ∈ Finset.range n, (y j - x j) * Spec.dual m n A B x j = ∑ i ∈ Finset.range m, (Spec.image n A y i - Spec.image n A x i) * (B i - Spec.image n A x i) := by
      unfold Spec.dual
      simp only [Finset.mul_sum]
      rw [Finset.sum_comm]
      refine Finset.sum_congr rfl fun i _ => ?_
      have : Spec.image n A y i - Spec.image n A x i = ∑ j ∈ Finset.range n, (y j - x j) * A j i := by
        unfold Spec.image
        rw [← Finset.sum_sub_distrib]
        exact Finset.sum_congr rfl fun j _ => by ring
      rw [this, Finset.sum_mul]
      exact Finset.sum_congr rfl fun j _ => by ring
    rw [e, Finset.mul_sum]
    unfold Spec.distSq
    rw [← Finset.sum_add_distrib, ← Finset.sum_sub_distrib]
    exact Finset.sum_congr rfl fun i _ => by ring
  have h2 : 0 ≤ ∑ i ∈ Finset.range m, (Spec.image n A y i - Spec.image n A x i) * (Spec.image n A y i - Spec.image n A x i) := Finset.sum_nonneg fun i _ => mul_self_nonneg _
  have h3 : ∑ j ∈ Finset.range n, (y j - x j) * Spec.dual m n A B x j ≤ 0 := by
    refine Finset.sum_nonpos fun j hj => ?_
    have hj' := Finset.mem_range.1 hj
    have : (y j - x j) * Spec.dual m n A B x j = y j * Spec.dual m n A B x j - x j * Spec.dual m n A B x j := by ring
    rw [this, hc j hj', sub_zero]
    exact mul_nonpos_of_nonneg_of_nonpos (hy j hj') (hd j hj')
  linarith

/-- If the routine reports success, the result has no negative coordinates, the dual variables of all columns are not positive and those of the columns in use are zero, and no other
point without negative coordinates is closer to the right hand side; `rnorm` is the distance. -/
theorem nnls_optimal {sqrt : K → K} (hs : Spec.SquareRoot sqrt) (m n : ℕ) (A : ℕ → ℕ → K) (B : ℕ → K) (mem : State K) (k : ℕ)
    (h : (nnls sqrt m n A B mem k).loc = .done 1) :
    (∀ j, j < n → 0 ≤ (nnls sqrt m n A B mem k).x j) ∧
    (∀ j, j < n → Spec.dual m n A B (nnls sqrt m n A B mem k).x j ≤ 0) ∧
    (∀ j, j < n → (nnls sqrt m n A B mem k).x j * Spec.dual m n A B (nnls sqrt m n A B mem k).x j = 0) ∧
    (∀ y : ℕ → K, (∀ j, j < n → 0 ≤ y j) → Spec.distSq m n A B (nnls sqrt m n A B mem k).x ≤ Spec.distSq m n A B y) ∧
    0 ≤ rnorm sqrt m (nnls sqrt m n A B mem k) ∧
    rnorm sqrt m (nnls sqrt m n A B mem k) * rnorm sqrt m (nnls sqrt m n A B mem k) = Spec.distSq m n A B (nnls sqrt m n A B mem k).x := by
  by_cases h0 : m = 0 ∨ n = 0
  · exfalso
    have : ∀ k, (nnls sqrt m n A B mem k).loc = .done 2 := by
      intro k
      induction k with
      | zero => unfold nnls initial; rw [if_pos h0]
      | succ k ih => unfold nnls; rw [done_stays sqrt m n _ ⟨2, ih⟩]; exact ih
    rw [this k] at h
    exact absurd h (by decide)
  push Not at h0
  obtain ⟨hb, ha⟩ := nnls_inv hs m n A B mem (Nat.pos_of_ne_zero h0.1) (Nat.pos_of_ne_zero h0.2) k
  generalize nnls sqrt m n A B mem k = s at h hb ha ⊢
  unfold At at ha
  rw [h] at ha
  obtain ⟨hf, hd⟩ := ha rfl
  have himg : ∀ i, i < m → Spec.image n s.a s.x i = if i < s.nsetp then s.b i else 0 := by
    intro i hi
    have e1 : Spec.image n s.a s.x i = ∑ p ∈ Finset.range n, s.x (s.index p) * s.a (s.index p) i := by
      unfold Spec.image
      exact (sum_positions hb.range hb.inj fun j => s.x j * s.a j i).symm
    have e2 : ∑ p ∈ Finset.range n, s.x (s.index p) * s.a (s.index p) i = ∑ p ∈ Finset.range s.nsetp, s.x (s.index p) * s.a (s.index p) i := by
      refine (Finset.sum_subset (Finset.range_subset_range.2 hb.cols) fun p h1 h2 => ?_).symm
      rw [hb.active p (by simpa using h2) (Finset.mem_range.1 h1), zero_mul]
    rw [e1, e2]
    by_cases hc : i < s.nsetp
    · rw [if_pos hc]; exact hf.fit i hc
    · rw [if_neg hc]
      refine Finset.sum_eq_zero fun p hp => ?_
      have := Finset.mem_range.1 hp
      rw [hb.tri p this i (by omega) hi, mul_zero]
  have hdual : ∀ j, j < n → Spec.dual m n s.a s.b s.x j = dotFrom s.nsetp m (s.a j) s.b := by
    intro j hj
    unfold Spec.dual
    rw [Finset.range_eq_Ico, ← Finset.sum_Ico_consecutive _ (Nat.zero_le _) hb.rows, Finset.sum_eq_zero, zero_add]
    · refine Finset.sum_congr rfl fun i hi => ?_
      obtain ⟨h1, h2⟩ := Finset.mem_Ico.1 hi
      rw [himg i h2, if_neg (by omega), sub_zero]
    · intro i hi
      obtain ⟨_, h2⟩ := Finset.mem_Ico.1 hi
      rw [himg i (lt_of_lt_of_le h2 hb.rows), if_pos h2, sub_self, mul_zero]
  have hsame : ∀ j, j < n → Spec.dual m n A B s.x j = Spec.dual m n s.a s.b s.x j := by
    intro j hj
    rw [dual_eq, dual_eq, hb.gramB j hj]
    congr 1
    exact Finset.sum_congr rfl fun k hk => by rw [hb.gram j k hj (Finset.mem_range.1 hk)]
  have hle : ∀ j, j < n → Spec.dual m n A B s.x j ≤ 0 ∧ s.x j * Spec.dual m n A B s.x j = 0 := by
    intro j hj
    rw [hsame j hj, hdual j hj]
    obtain ⟨p, hp, rfl⟩ := position hb.range hb.inj hj
    by_cases hc : p < s.nsetp
    · have : dotFrom s.nsetp m (s.a (s.index p)) s.b = 0 := dot_zero fun i h1 h2 => hb.tri p hc i (by omega) h2
      rw [this]; exact ⟨le_rfl, mul_zero _⟩
    · exact ⟨hd p (by omega) hp, by rw [hb.active p (by omega) hp, zero_mul]⟩
  have hR := hs (dotFrom s.nsetp m s.b s.b) (dot_self_nonneg _ _ _)
  refine ⟨hb.nonneg, fun j hj => (hle j hj).1, fun j hj => (hle j hj).2, fun y hy => ?_, hR.1, ?_⟩
  · exact optimal_of_dual (fun j hj => (hle j hj).1) (fun j hj => (hle j hj).2) hy
  · refine hR.2.trans ?_
    have e1 : Spec.distSq m n A B s.x = Spec.distSq m n s.a s.b s.x := by
      rw [distSq_eq, distSq_eq, hb.gramBB]
      congr 1
      exact Finset.sum_congr rfl fun j hj => by rw [hb.gramB j (Finset.mem_range.1 hj), hsame j (Finset.mem_range.1 hj)]
    rw [e1]
    unfold Spec.distSq
    rw [Finset.range_eq_Ico, ← Finset.sum_Ico_consecutive _ (Nat.zero_le _) hb.rows, Finset.sum_eq_zero, zero_add]
    · refine Finset.sum_congr rfl fun i hi => ?_
      obtain ⟨h1, h2⟩ := Finset.mem_Ico.1 hi
      rw [himg i h2, if_neg (by omega)]; ring
    · intro i hi
      obtain ⟨_, h2⟩ := Finset.mem_Ico.1 hi
      rw [himg i (lt_of_lt_of_le h2 hb.rows), if_pos h2, sub_self, mul_zero]

/-- In all rounds the routine stays inside of its arrays (`m` rows, `n` columns) and no division is by zero: the pivots of the triangular system and the differences that the step length
divides by are not zero. -/
theorem nnls_defined {sqrt : K → K} (hs : Spec.SquareRoot sqrt) (m n : ℕ) (A : ℕ → ℕ → K) (B : ℕ → K) (mem : State K) (hm : 0 < m) (hn : 0 < n) (k : ℕ) :
    let s := nnls sqrt m n A B mem k
    s.nsetp ≤ n ∧ s.nsetp ≤ m ∧ (∀ p, p < n → s.index p < n) ∧ (∀ jj, s.loc = .delete jj → jj < s.nsetp) ∧
    (s.loc = .solve → ∀ p, p < s.nsetp → s.a (s.index p) p ≠ 0 ∧
      (backward s.a s.index s.nsetp s.z p ≤ 0 → backward s.a s.index s.nsetp s.z p - s.x (s.index p) ≠ 0)) := by
  obtain ⟨hb, ha⟩ := nnls_inv hs m n A B mem hm hn k
  simp only
  generalize nnls sqrt m n A B mem k = s at hb ha ⊢
  refine ⟨hb.cols, hb.rows, hb.range, fun jj hl => ?_, fun hl p hp => ⟨hb.diag p hp, fun hz => ?_⟩⟩
  · unfold At at ha
    rw [hl] at ha
    exact ha
  · have := solve_defined hl ha p hp hz
    exact (by linarith : backward s.a s.index s.nsetp s.z p - s.x (s.index p) < 0).ne

end Splinepy.Lsq
