import Verif.Model.KnotInsertion
import Verif.Lemma.Blossom
import Verif.Spec.KnotInsertion
import Mathlib.Data.List.NodupEquivFin

/-! Lemmas about the model of knot insertion: the span search, the in-place row assembly and merging. -/
namespace Splinepy.KnotInsertion
open Splinepy.Blossom
set_option linter.unusedSectionVars false

variable {K : Type} [Field K] [LinearOrder K] [IsStrictOrderedRing K]

theorem mapM_eq_map {α β : Type*} (f : α → Option β) (l : List α) (g : α → β) (h : ∀ a ∈ l, f a = some (g a)) :
    l.mapM f = some (l.map g) := by
  induction l with
  | nil => rfl
  | cons a l ih =>
    rw [List.mapM_cons, h a (by simp), ih (fun b hb => h b (by simp [hb]))]; rfl

theorem at_eq {kv : List K} {i : ℕ} (h : i < kv.length) : at_ kv i = kv[i] := by
  unfold at_; rw [List.getD_eq_getElem?_getD, List.getElem?_eq_getElem h]; rfl

theorem at_mem {kv : List K} {i : ℕ} (h : i < kv.length) : at_ kv i ∈ kv := by
  rw [at_eq h]; exact List.getElem_mem h

theorem at_mono {kv : List K} (hs : kv.Pairwise (· ≤ ·)) {i j : ℕ} (hij : i ≤ j) (hj : j < kv.length) : at_ kv i ≤ at_ kv j := by
  rw [at_eq (lt_of_le_of_lt hij hj), at_eq hj]
  rcases Nat.eq_or_lt_of_le hij with h | h
  · subst h; exact le_rfl
  · exact List.pairwise_iff_getElem.1 hs i j _ hj h

theorem take_succ_at {kv : List K} {i : ℕ} (h : i < kv.length) : kv.take (i + 1) = kv.take i ++ [at_ kv i] := by
  rw [at_eq h, List.take_add_one, List.getElem?_eq_getElem h]; rfl

theorem mem_take_le {kv : List K} (hs : kv.Pairwise (· ≤ ·)) {i : ℕ} (hi : i < kv.length) {x : K} (hx : x ∈ kv.take (i + 1)) :
    x ≤ at_ kv i := by
  obtain ⟨k, hk, rfl⟩ := List.getElem_of_mem hx
  rw [List.length_take] at hk
  rw [List.getElem_take, ← at_eq (by omega)]
  exact at_mono hs (by omega) hi

/-- state of the span search -/
structure ScanInv (old new : List K) (i c span : ℕ) : Prop where
  len : i ≤ new.length
  cspan : c ≤ span
  spanlt : span < old.length
  flat : ∀ k, c ≤ k → k ≤ span → at_ old k = at_ old span
  jump : span + 1 < old.length → at_ old span < at_ old (span + 1)
  upper : ∀ i' < i, at_ new i' ≤ at_ old span
  rest : ∃ rest : List K, (new.take i).Perm (old.take c ++ rest) ∧ ∀ r ∈ rest, at_ old 0 < r

theorem scan_spec {old new : List K} {tol : K} (hso : old.Pairwise (· ≤ ·)) (hsn : new.Pairwise (· ≤ ·)) (htol : 0 < tol)
    (hsep : ∀ a ∈ old, ∀ b ∈ new, |a - b| < tol → a = b) (h0 : at_ new 0 = at_ old 0) (i c span : ℕ) (H : ScanInv old new i c span) :
    ∃ bs : List ℤ, scan old new tol i c span = some bs ∧ bs.length = i ∧ ∀ i' < i, ∃ b : ℕ, bs.getD i' 0 = (b : ℤ) ∧ b < old.length ∧
      at_ old b ≤ at_ new i' ∧ (b + 1 < old.length → at_ new i' < at_ old (b + 1)) := by
  induction i generalizing c span with
  | zero => exact ⟨[], rfl, rfl, fun i' hi' => absurd hi' (by omega)⟩
  | succ i ih =>
    obtain ⟨rest, hperm, hrest⟩ := H.rest
    have hin : i < new.length := H.len
    cases c with
    | zero =>
      exfalso
      rw [List.take_zero, List.nil_append] at hperm
      have hmem : at_ new 0 ∈ new.take (i + 1) := by
        rw [at_eq (by omega), List.mem_take_iff_getElem]
        exact ⟨0, by omega, rfl⟩
      have := hrest _ (hperm.mem_iff.1 hmem)
      rw [h0] at this
      exact lt_irrefl _ this
    | succ k =>
      have hklt : k < old.length := by have := H.cspan; have := H.spanlt; omega
      have hmono : at_ old k ≤ at_ new i := by
        apply mem_take_le hsn hin
        rw [hperm.mem_iff, take_succ_at hklt]
        simp
      simp only [scan]
      by_cases hm : |at_ old k - at_ new i| < tol
      · rw [if_pos hm]
        have heq := hsep _ (at_mem hklt) _ (at_mem hin) hm
        set span' := if at_ old k < at_ old (k + 1) then k else span with hspan'
        have hk1 : k + 1 ≤ span := H.cspan
        have hkspan : ¬ at_ old k < at_ old (k + 1) → at_ old k = at_ old span := by
          intro hn
          rw [← H.flat (k + 1) le_rfl hk1]
          exact le_antisymm (at_mono hso (by omega) (by have := H.spanlt; omega)) (not_lt.1 hn)
        have hsv : at_ old span' = at_ old k := by
          by_cases hn : at_ old k < at_ old (k + 1)
          · rw [hspan', if_pos hn]
          · rw [hspan', if_neg hn, hkspan hn]
        have H' : ScanInv old new i k span' := by
          refine ⟨by omega, ?_, ?_, ?_, ?_, ?_, rest, ?_, hrest⟩
          · rw [hspan']; split <;> omega
          · rw [hspan']; have := H.spanlt; split <;> omega
          · intro q hq1 hq2
            by_cases hn : at_ old k < at_ old (k + 1)
            · rw [hspan', if_pos hn] at hq2 ⊢
              have : q = k := by omega
              rw [this]
            · rw [hspan', if_neg hn] at hq2 ⊢
              rcases Nat.eq_or_lt_of_le hq1 with h | h
              · rw [← h]; exact hkspan hn
              · exact H.flat q h hq2
          · by_cases hn : at_ old k < at_ old (k + 1)
            · rw [hspan', if_pos hn]; intro _; exact hn
            · rw [hspan', if_neg hn]; exact H.jump
          · intro i' hi'
            rw [hsv, heq]
            exact at_mono hsn (by omega) hin
          · rw [take_succ_at hin, take_succ_at hklt, heq] at hperm
            have h1 : (at_ new i :: new.take i).Perm (at_ new i :: (old.take k ++ rest)) := by
              refine ((List.perm_append_singleton (at_ new i) (new.take i)).symm.trans hperm).trans ?_
              rw [List.append_assoc, List.singleton_append]
              exact List.perm_middle
            exact h1.cons_inv
        obtain ⟨bs, hbs, hlen, hall⟩ := ih k span' H'
        refine ⟨bs ++ [spanBase old (at_ new i) k span'], by rw [hbs]; rfl, by simp [hlen], ?_⟩
        intro i' hi'
        rcases Nat.lt_or_ge i' i with h | h
        · obtain ⟨b, hb, h2⟩ := hall i' h
          refine ⟨b, ?_, h2⟩
          rw [List.getD_append _ _ _ _ (by omega)]; exact hb
        · have : i' = i := by omega
          subst this
          refine ⟨span', ?_, H'.spanlt, by rw [hsv, heq], ?_⟩
          · rw [List.getD_append_right _ _ _ _ (by omega), hlen]
            simp only [Nat.sub_self, List.getD_cons_zero, spanBase]
            rw [if_neg (by rw [hsv, heq]; exact lt_irrefl _)]
          · intro hlt
            have := H'.jump hlt
            rwa [hsv, heq] at this
      · rw [if_neg hm]
        have hne : at_ old k ≠ at_ new i := by
          intro h; apply hm; rw [h, sub_self, abs_zero]; exact htol
        have hlt : at_ old k < at_ new i := lt_of_le_of_ne hmono hne
        rw [if_neg (not_lt.2 hmono)]
        have hnot : at_ new i ∉ old.take (k + 1) := fun h => absurd (mem_take_le hso hklt h) (not_le.2 hlt)
        have hmemrest : at_ new i ∈ rest := by
          have : at_ new i ∈ old.take (k + 1) ++ rest := by
            rw [← hperm.mem_iff, take_succ_at hin]; simp
          exact (List.mem_append.1 this).resolve_left hnot
        have H' : ScanInv old new i (k + 1) span := by
          refine ⟨by omega, H.cspan, H.spanlt, H.flat, H.jump, fun i' hi' => H.upper i' (by omega), rest.erase (at_ new i), ?_,
            fun r hr => hrest r (List.mem_of_mem_erase hr)⟩
          rw [take_succ_at hin] at hperm
          have h1 : (at_ new i :: new.take i).Perm (at_ new i :: (old.take (k + 1) ++ rest.erase (at_ new i))) := by
            refine ((List.perm_append_singleton (at_ new i) (new.take i)).symm.trans hperm).trans ?_
            exact ((List.perm_cons_erase hmemrest).append_left _).trans List.perm_middle
          exact h1.cons_inv
        obtain ⟨bs, hbs, hlen, hall⟩ := ih (k + 1) span H'
        refine ⟨bs ++ [spanBase old (at_ new i) (k + 1) span], by rw [hbs]; rfl, by simp [hlen], ?_⟩
        intro i' hi'
        rcases Nat.lt_or_ge i' i with h | h
        · obtain ⟨b, hb, h2⟩ := hall i' h
          refine ⟨b, ?_, h2⟩
          rw [List.getD_append _ _ _ _ (by omega)]; exact hb
        · have : i' = i := by omega
          subst this
          by_cases hs : at_ new i' < at_ old span
          · refine ⟨k, ?_, hklt, hmono, ?_⟩
            · rw [List.getD_append_right _ _ _ _ (by omega), hlen]
              simp only [Nat.sub_self, List.getD_cons_zero, spanBase]
              rw [if_pos hs]; push_cast; ring
            · intro _
              rw [H.flat (k + 1) le_rfl H.cspan]; exact hs
          · have he : at_ new i' = at_ old span := le_antisymm (H.upper i' (by omega)) (not_lt.1 hs)
            refine ⟨span, ?_, H.spanlt, by rw [he], ?_⟩
            · rw [List.getD_append_right _ _ _ _ (by omega), hlen]
              simp only [Nat.sub_self, List.getD_cons_zero, spanBase]
              rw [if_neg hs]
            · intro h2; rw [he]; exact H.jump h2

theorem rowInner_spec (old : List K) (t : K) (mu d j n : ℕ) (r : ℕ → K) (col : ℕ) :
    rowInner old t mu d j n r col =
      if j < col ∧ col ≤ j + n then r (col - 1) * rMatrix old t mu d (col - j - 1) (col - j) + r col * rMatrix old t mu d (col - j) (col - j)
      else r col := by
  induction n generalizing r with
  | zero => rw [if_neg (by omega)]; rfl
  | succ n ih =>
    simp only [rowInner]
    rw [ih]
    by_cases h1 : j < col ∧ col ≤ j + n
    · rw [if_pos h1, if_pos (by omega), Function.update_of_ne (by omega), Function.update_of_ne (by omega)]
    · rw [if_neg h1]
      by_cases h2 : col = j + (n + 1)
      · subst h2
        rw [Function.update_self, if_pos (by omega)]
        simp only [show j + (n + 1) - j = n + 1 by omega]
      · rw [Function.update_of_ne h2, if_neg (by omega)]

/-- the entries of row `i` after the loop over the degrees are values of the blossom -/
theorem rowLoop_spec (old new : List K) (i mu j n : ℕ) (hn : n + 1 ≤ mu) (col : ℕ) :
    rowLoop old new i mu j n
      (Function.update (Function.update (fun _ => 0) j (rMatrix old (at_ new (i + 1)) mu 1 0 0)) (j + 1)
        (rMatrix old (at_ new (i + 1)) mu 1 0 1)) col =
      if j ≤ col ∧ col ≤ j + n + 1 then bl (at_ old) mu (fun k => at_ new (i + 1 + k)) (n + 1) (mu - (n + 1) + (col - j)) else 0 := by
  set y : ℕ → K := fun k => at_ new (i + 1 + k) with hy
  set T := at_ old with hT
  induction n generalizing col with
  | zero =>
    simp only [rowLoop]
    have hb : ∀ J, bl T mu y 1 J = (y 0 - T J) / (T (J + 0 + 1) - T J) * (if J = mu then 1 else 0) +
        (T (J + 0 + 2) - y 0) / (T (J + 0 + 2) - T (J + 1)) * (if J + 1 = mu then 1 else 0) := fun J => rfl
    by_cases h1 : col = j + 1
    · subst h1
      rw [Function.update_self, if_pos (by omega), hb]
      rw [show mu - (0 + 1) + (j + 1 - j) = mu by omega]
      simp [rMatrix, hT, hy]
    · rw [Function.update_of_ne h1]
      by_cases h2 : col = j
      · subst h2
        rw [Function.update_self, if_pos (by omega), hb]
        rw [show mu - (0 + 1) + (col - col) = mu - 1 by omega, if_neg (by omega), if_pos (by omega)]
        simp only [rMatrix, hT, hy, mul_zero, zero_add, mul_one, show mu - 1 + 1 = mu by omega, show mu - 1 + 2 = mu + 1 by omega]
        simp
      · rw [Function.update_of_ne h2, if_neg (by omega)]
  | succ n ih =>
    have ih' := ih (by omega)
    simp only [rowLoop, rowStep]
    set r := rowLoop old new i mu j n
      (Function.update (Function.update (fun _ => 0) j (rMatrix old (at_ new (i + 1)) mu 1 0 0)) (j + 1)
        (rMatrix old (at_ new (i + 1)) mu 1 0 1)) with hr
    have hyn : at_ new (i + (n + 2)) = y (n + 1) := by simp only [hy]; congr 1; omega
    rw [hyn]
    have hsup := supp_bl T mu y (n + 1)
    have hb : ∀ J, bl T mu y (n + 1 + 1) J = (y (n + 1) - T J) / (T (J + (n + 1) + 1) - T J) * bl T mu y (n + 1) J +
        (T (J + (n + 1) + 2) - y (n + 1)) / (T (J + (n + 1) + 2) - T (J + 1)) * bl T mu y (n + 1) (J + 1) := fun J => rfl
    have hlo : bl T mu y (n + 1) (mu - (n + 2)) = 0 := by
      by_contra hc; have := hsup _ hc; omega
    have hhi : bl T mu y (n + 1) (mu + 1) = 0 := by
      by_contra hc; have := hsup _ hc; omega
    by_cases h0 : col = j
    · subst h0
      rw [Function.update_self, rowInner_spec, if_neg (by omega), Function.update_of_ne (by omega), ih', if_pos (by omega), if_pos (by omega), hb]
      rw [show mu - (n + 1 + 1) + (col - col) = mu - (n + 2) by omega, hlo, mul_zero, zero_add]
      rw [show mu - (n + 1) + (col - col) = mu - (n + 2) + 1 by omega]
      simp only [rMatrix, hT]
      rw [if_neg (by omega), if_pos trivial]
      rw [show mu + 1 + 0 = mu - (n + 2) + (n + 1) + 2 by omega, show mu - (n + 2) + (n + 1) + 2 - (n + 2) = mu - (n + 2) + 1 by omega]
    · rw [Function.update_of_ne h0, rowInner_spec]
      by_cases h1 : j < col ∧ col ≤ j + (n + 2 - 1)
      · rw [if_pos h1, Function.update_of_ne (by omega), Function.update_of_ne (by omega), ih', ih', if_pos (by omega), if_pos (by omega),
          if_pos (by omega), hb]
        obtain ⟨q, rfl⟩ : ∃ q, col = j + (q + 1) := ⟨col - j - 1, by omega⟩
        have e1 : mu - (n + 1) + (j + (q + 1) - 1 - j) = mu - (n + 1 + 1) + (j + (q + 1) - j) := by omega
        have e2 : mu - (n + 1) + (j + (q + 1) - j) = mu - (n + 1 + 1) + (j + (q + 1) - j) + 1 := by omega
        rw [e1, e2]
        set J := mu - (n + 1 + 1) + (j + (q + 1) - j) with hJ
        simp only [rMatrix, hT]
        rw [if_neg (by omega), if_neg (by omega), if_neg (by omega), if_pos trivial]
        rw [show mu + 1 + (j + (q + 1) - j - 1) = J + (n + 1) + 1 by omega, show J + (n + 1) + 1 - (n + 2) = J by omega,
          show mu + 1 + (j + (q + 1) - j) = J + (n + 1) + 2 by omega, show J + (n + 1) + 2 - (n + 2) = J + 1 by omega]
        ring
      · rw [if_neg h1]
        by_cases h2 : col = j + (n + 2)
        · subst h2
          rw [Function.update_self, ih', if_pos (by omega), if_pos (by omega), hb]
          rw [show mu - (n + 1 + 1) + (j + (n + 2) - j) = mu by omega, hhi, mul_zero, add_zero,
            show mu - (n + 1) + (j + (n + 2) - 1 - j) = mu by omega]
          simp only [rMatrix, hT]
          rw [if_neg (by omega), if_neg (by omega)]
          rw [show mu + 1 + (n + 2 - 1) = mu + (n + 1) + 1 by omega, show mu + (n + 1) + 1 - (n + 2) = mu by omega]
        · rw [Function.update_of_ne h2, ih', if_neg (by omega), if_neg (by omega)]

open Splinepy.Spec (knotSeq Insertion)

theorem at_eq_knotSeq (kv : List K) : at_ kv = knotSeq kv := rfl

theorem knotSeq_beyond {kv : List K} {i : ℕ} (h : kv.length - 1 ≤ i) : knotSeq kv i = knotSeq kv (kv.length - 1) := by
  unfold knotSeq
  rcases Nat.lt_or_ge i kv.length with h1 | h1
  · have : i = kv.length - 1 := by omega
    rw [this]
  · rw [List.getD_eq_getElem?_getD, List.getElem?_eq_none h1, Option.getD_none]
    cases kv with
    | nil => simp
    | cons a l =>
      rw [List.getD_eq_getElem?_getD, List.getElem?_eq_getElem (by simp), Option.getD_some, List.getLastD_cons, ← List.getLast_eq_getLastD]
      · exact List.getLast_eq_getElem _
      · simp

theorem knotSeq_monotone {kv : List K} (hs : kv.Pairwise (· ≤ ·)) : Monotone (knotSeq kv) := by
  intro i j hij
  rcases Nat.lt_or_ge j kv.length with h | h
  · exact at_mono hs hij h
  · rw [knotSeq_beyond (show kv.length - 1 ≤ j by omega)]
    rcases Nat.lt_or_ge i kv.length with h' | h'
    · exact at_mono hs (by omega) (by omega)
    · rw [knotSeq_beyond (show kv.length - 1 ≤ i by omega)]

section
variable {p : ℕ} {old ins new : List K} {tol : K}

theorem Ins.newLength (H : Insertion p old ins new tol) : new.length = old.length + ins.length := by
  rw [H.union.length_eq, List.length_append]

theorem Ins.last (H : Insertion p old ins new tol) : knotSeq new (new.length - 1) = knotSeq old (old.length - 1) := by
  have hn := Ins.newLength H
  have hl := H.length
  apply le_antisymm
  · have hm : knotSeq new (new.length - 1) ∈ new := at_mem (by omega)
    rw [H.union.mem_iff, List.mem_append] at hm
    rcases hm with hm | hm
    · obtain ⟨k, hk, he⟩ := List.getElem_of_mem hm
      rw [← he, ← at_eq hk]
      exact at_mono H.sorted_old (by omega) (by omega)
    · exact le_of_lt (lt_of_lt_of_le (H.inside _ hm).2 (knotSeq_monotone H.sorted_old (by omega)))
  · have hm : knotSeq old (old.length - 1) ∈ new := by
      rw [H.union.mem_iff, List.mem_append]; exact Or.inl (at_mem (by omega))
    obtain ⟨k, hk, he⟩ := List.getElem_of_mem hm
    rw [← he, ← at_eq hk]
    exact at_mono H.sorted_new (by omega) (by omega)

theorem Ins.first (H : Insertion p old ins new tol) : knotSeq new 0 = knotSeq old 0 := by
  have hn := Ins.newLength H
  have hl := H.length
  apply le_antisymm
  · have hm : knotSeq old 0 ∈ new := by
      rw [H.union.mem_iff, List.mem_append]; exact Or.inl (at_mem (by omega))
    obtain ⟨k, hk, he⟩ := List.getElem_of_mem hm
    rw [← he, ← at_eq hk]
    exact at_mono H.sorted_new (by omega) (by omega)
  · have hm : knotSeq new 0 ∈ new := at_mem (by omega)
    rw [H.union.mem_iff, List.mem_append] at hm
    rcases hm with hm | hm
    · obtain ⟨k, hk, he⟩ := List.getElem_of_mem hm
      rw [← he, ← at_eq hk]
      exact at_mono H.sorted_old (by omega) (by omega)
    · rw [H.clamped]; exact le_of_lt (H.inside _ hm).1

theorem Ins.embed (H : Insertion p old ins new tol) :
    ∃ ι : ℕ → ℕ, StrictMono ι ∧ (∀ j, knotSeq new (ι j) = knotSeq old j) ∧ ∀ j < old.length, ι j < new.length := by
  have hn := Ins.newLength H
  have hl := H.length
  have hsub : old.Sublist new := by
    apply List.sublist_of_subperm_of_pairwise _ H.sorted_old H.sorted_new
    exact (List.sublist_append_left old ins).subperm.trans H.union.symm.subperm
  obtain ⟨f, hf⟩ := List.sublist_iff_exists_orderEmbedding_getElem?_eq.1 hsub
  refine ⟨f, f.strictMono, ?_, ?_⟩
  · intro j
    have hfj := hf j
    rcases Nat.lt_or_ge j old.length with h | h
    · unfold knotSeq
      rw [List.getD_eq_getElem?_getD, ← hfj, List.getElem?_eq_getElem h, List.getD_eq_getElem?_getD, List.getElem?_eq_getElem h]
      rfl
    · rw [List.getElem?_eq_none h] at hfj
      have := List.getElem?_eq_none_iff.1 hfj.symm
      rw [knotSeq_beyond (show new.length - 1 ≤ f j by omega), Ins.last H, knotSeq_beyond (show old.length - 1 ≤ j by omega)]
  · intro j h
    have hfj := hf j
    rw [List.getElem?_eq_getElem h] at hfj
    exact (List.getElem?_eq_some_iff.1 hfj.symm).1

theorem Ins.lt_end (H : Insertion p old ins new tol) {i : ℕ} (hi : i < new.length - p - 1) :
    knotSeq new i < knotSeq old (old.length - p - 1) := by
  have hn := Ins.newLength H
  have hl := H.length
  by_contra hc
  rw [not_lt] at hc
  set T := knotSeq old (old.length - p - 1) with hT
  have h1 : new.countP (fun x => decide (T ≤ x)) = old.countP (fun x => decide (T ≤ x)) + ins.countP (fun x => decide (T ≤ x)) := by
    rw [H.union.countP_eq, List.countP_append]
  have h2 : ins.countP (fun x => decide (T ≤ x)) = 0 := by
    rw [List.countP_eq_zero]
    intro x hx
    simp only [decide_eq_true_eq, not_le]
    exact (H.inside x hx).2
  have h3 : old.countP (fun x => decide (T ≤ x)) ≤ p + 1 := by
    conv_lhs => rw [← List.take_append_drop (old.length - p - 1) old]
    rw [List.countP_append]
    have h4 : (old.take (old.length - p - 1)).countP (fun x => decide (T ≤ x)) = 0 := by
      rw [List.countP_eq_zero]
      intro x hx
      simp only [decide_eq_true_eq, not_le]
      rw [show old.length - p - 1 = old.length - p - 2 + 1 by omega] at hx
      exact lt_of_le_of_lt (mem_take_le H.sorted_old (by omega) hx) H.last_span
    have h5 : (old.drop (old.length - p - 1)).countP (fun x => decide (T ≤ x)) ≤ (old.drop (old.length - p - 1)).length :=
      List.countP_le_length
    rw [List.length_drop] at h5
    omega
  have h6 : new.length - i ≤ new.countP (fun x => decide (T ≤ x)) := by
    have h7 : (new.drop i).countP (fun x => decide (T ≤ x)) = (new.drop i).length := by
      rw [List.countP_eq_length]
      intro x hx
      simp only [decide_eq_true_eq]
      obtain ⟨k, hk, rfl⟩ := List.getElem_of_mem hx
      rw [List.length_drop] at hk
      rw [List.getElem_drop, ← at_eq (by omega)]
      exact le_trans hc (at_mono H.sorted_new (by omega) (by omega))
    rw [List.length_drop] at h7
    rw [← h7]
    exact (List.drop_sublist i new).countP_le
  omega

theorem Ins.scanInv (H : Insertion p old ins new tol) : ScanInv old new (new.length - 1) (old.length - 1) (old.length - 1) := by
  have hn := Ins.newLength H
  have hl := H.length
  refine ⟨by omega, le_rfl, by omega, ?_, ?_, ?_, ins, ?_, ?_⟩
  · intro k h1 h2; have : k = old.length - 1 := by omega
    rw [this]
  · omega
  · intro i' hi'
    have := Ins.last H
    rw [at_eq_knotSeq, at_eq_knotSeq, ← this]
    exact knotSeq_monotone H.sorted_new (by omega)
  · have hnew : new = new.take (new.length - 1) ++ [at_ new (new.length - 1)] := by
      rw [← take_succ_at (by omega), show new.length - 1 + 1 = new.length by omega, List.take_length]
    have hold : old = old.take (old.length - 1) ++ [at_ old (old.length - 1)] := by
      rw [← take_succ_at (by omega), show old.length - 1 + 1 = old.length by omega, List.take_length]
    have hu := H.union
    have hlast : at_ new (new.length - 1) = at_ old (old.length - 1) := Ins.last H
    set a := new.take (new.length - 1) with ha
    set b := old.take (old.length - 1) with hb
    rw [hnew, hold, hlast] at hu
    have h1 : (at_ old (old.length - 1) :: a).Perm (at_ old (old.length - 1) :: (b ++ ins)) := by
      refine ((List.perm_append_singleton _ a).symm.trans hu).trans ?_
      rw [List.append_assoc, List.singleton_append]
      exact List.perm_middle
    exact h1.cons_inv
  · intro r hr
    rw [at_eq_knotSeq, H.clamped]; exact (H.inside r hr).1

/-- All facts about the result of the knot insertion: the span indices lie in the spline and the rows are the Oslo rows. -/
theorem insertionMatrix_spec (H : Insertion p old ins new tol) :
    ∃ (base : List ℤ) (sp ι : ℕ → ℕ),
      insertionMatrix old new p tol = some ((List.range (new.length - p - 1)).map (fun i =>
        (List.range (old.length - p - 1)).map (row (knotSeq old) (knotSeq new) sp i p)), base) ∧
      (∀ i < new.length - p - 1, base.getD i 0 = (sp i : ℤ) ∧ p ≤ sp i ∧ sp i < old.length - p - 1) ∧
      (∀ j < old.length, ι j < new.length) ∧ base.length = new.length ∧
      Refines (knotSeq old) (knotSeq new) ι sp (new.length - p - 2) := by
  have hn := Ins.newLength H
  have hl := H.length
  have hmono := knotSeq_monotone H.sorted_old
  obtain ⟨ι, hι, hιe, hιl⟩ := Ins.embed H
  obtain ⟨bs, hbs, hbl, hall⟩ := scan_spec H.sorted_old H.sorted_new H.tol_pos
    (fun a ha b hb => H.separated a ha b (H.union.mem_iff.1 hb)) (Ins.first H) _ _ _ (Ins.scanInv H)
  have hex : ∀ i, ∃ b : ℕ, i < new.length - p - 1 → (bs ++ [0]).getD i 0 = (b : ℤ) ∧ p ≤ b ∧ b < old.length - p - 1 ∧
      knotSeq old b ≤ knotSeq new i ∧ knotSeq new i < knotSeq old (b + 1) := by
    intro i
    by_cases hi : i < new.length - p - 1
    · obtain ⟨b, hb, hblt, hb1, hb2⟩ := hall i (by omega)
      have hend := Ins.lt_end H hi
      rw [at_eq_knotSeq, at_eq_knotSeq] at hb1 hb2
      have hb3 : b < old.length - p - 1 := by
        by_contra hc
        have := hmono (show old.length - p - 1 ≤ b by omega)
        exact absurd (lt_of_le_of_lt (le_trans this hb1) hend) (lt_irrefl _)
      have hb4 := hb2 (by omega)
      refine ⟨b, fun _ => ⟨?_, ?_, hb3, hb1, hb4⟩⟩
      · rw [List.getD_append _ _ _ _ (by omega)]; exact hb
      · by_contra hc
        have h1 := hmono (show b + 1 ≤ p by omega)
        have h2 := knotSeq_monotone H.sorted_new (show 0 ≤ i by omega)
        rw [Ins.first H, H.clamped] at h2
        exact absurd (lt_of_lt_of_le hb4 (le_trans h1 h2)) (lt_irrefl _)
    · exact ⟨0, fun h => absurd h hi⟩
  choose sp hsp using hex
  refine ⟨bs ++ [0], sp, ι, ?_, fun i hi => ⟨(hsp i hi).1, (hsp i hi).2.1, (hsp i hi).2.2.1⟩, hιl, by simp [hbl]; omega, ?_⟩
  · unfold insertionMatrix knotSpanBase
    rw [if_neg (by omega), hbs]
    simp only [Option.map_some, Option.bind_eq_bind, Option.bind_some]
    rw [mapM_eq_map _ _ (fun i => (List.range (old.length - p - 1)).map (row (knotSeq old) (knotSeq new) sp i p))]
    · rfl
    · intro i hi
      rw [List.mem_range] at hi
      obtain ⟨h1, h2, h3, h4, h5⟩ := hsp i hi
      have hdeg := H.degree
      unfold matrixRow
      simp only [h1]
      rw [if_neg (by omega)]
      simp only [Int.toNat_natCast, Option.some.injEq]
      rw [show ((sp i : ℤ) - (p : ℤ)).toNat = sp i - p by omega]
      apply List.map_congr_left
      intro col hcol
      rw [rowLoop_spec old new i (sp i) (sp i - p) (p - 1) (by omega) col, show p - 1 + 1 = p by omega]
      have hsupp := supp_bl (knotSeq old) (sp i) (fun k => knotSeq new (i + 1 + k)) p col
      by_cases hc : sp i - p ≤ col ∧ col ≤ sp i - p + (p - 1) + 1
      · rw [if_pos hc, show sp i - p + (col - (sp i - p)) = col by omega]
        rfl
      · rw [if_neg hc]
        by_contra hne
        have := hsupp (fun h => hne h.symm)
        omega
  · refine ⟨hmono, knotSeq_monotone H.sorted_new, hι, hιe, ?_⟩
    intro i hi
    have := hsp i (by omega)
    exact ⟨this.2.2.2.1, this.2.2.2.2⟩

end

end Splinepy.KnotInsertion
