import Verif.Model.Unique
import Verif.Lemma.Threads
import Mathlib.Tactic.Linarith
import Mathlib.Tactic.Ring
import Mathlib.Algebra.Order.Ring.Abs

/-! Lemmas about grouping sorted lists, and about sorted lists with inserted elements. -/
set_option linter.unusedSectionVars false

namespace Splinepy.Unique

/-- runs of elements that are the same as the first one of the run -/
def groups {α : Type} (same : α → α → Bool) : List α → List (List α)
  | [] => []
  | x :: xs => (x :: xs.takeWhile (same x)) :: groups same (xs.dropWhile (same x))
termination_by l => l.length
decreasing_by
  have := (List.dropWhile_sublist (l := xs) (same x)).length_le
  simp only [List.length_cons]; omega

theorem groups_flatten {α : Type} (same : α → α → Bool) (l : List α) : (groups same l).flatten = l := by
  induction l using groups.induct same with
  | case1 => simp [groups]
  | case2 x xs ih =>
    rw [groups, List.flatten_cons, ih, List.cons_append, List.takeWhile_append_dropWhile]

theorem groups_ne_nil {α : Type} (same : α → α → Bool) (l : List α) : ∀ g ∈ groups same l, g ≠ [] := by
  induction l using groups.induct same with
  | case1 => simp [groups]
  | case2 x xs ih =>
    rw [groups]
    intro g hg
    rcases List.mem_cons.1 hg with rfl | hg
    · simp
    · exact ih g hg

theorem uniqueFrom_eq {α : Type} (same : α → α → Bool) (a : α) (xs : List α) :
    uniqueFrom same a xs = stdUnique same (xs.dropWhile (same a)) := by
  induction xs with
  | nil => rfl
  | cons x xs ih =>
    rw [uniqueFrom, List.dropWhile_cons]
    by_cases h : same a x
    · rw [if_pos h, if_pos h, ih]
    · rw [if_neg h, if_neg h]; rfl

theorem stdUnique_eq_groups {α : Type} (same : α → α → Bool) (d : α) (l : List α) : stdUnique same l = (groups same l).map (fun g => g.headD d) := by
  induction l using groups.induct same with
  | case1 => simp [groups, stdUnique]
  | case2 x xs ih => rw [groups, stdUnique, uniqueFrom_eq, ih]; rfl

theorem countUntil_append (u : ℕ) (l rest : List ℕ) (h : u ∉ l) : countUntil u (l ++ u :: rest) = some (l.length + 1, u :: rest) := by
  induction l with
  | nil => simp [countUntil]
  | cons x l ih =>
    rw [List.mem_cons, not_or] at h
    rw [List.cons_append, countUntil, if_neg (fun e => h.1 e.symm), ih h.2]
    simp

theorem multiplicities_eq_groups (same : ℕ → ℕ → Bool) (l : List ℕ) (hn : l.Nodup) (hne : l ≠ []) :
    multiplicities l (stdUnique same l).tail = some ((groups same l).map List.length) := by
  induction l using groups.induct same with
  | case1 => exact absurd rfl hne
  | case2 x xs ih =>
    rw [groups, stdUnique, List.tail_cons, uniqueFrom_eq]
    have hxs : xs.takeWhile (same x) ++ xs.dropWhile (same x) = xs := List.takeWhile_append_dropWhile
    cases hd : xs.dropWhile (same x) with
    | nil =>
      rw [hd, List.append_nil] at hxs
      simp [stdUnique, multiplicities, groups, hxs]
    | cons y ys =>
      rw [hd] at hxs ih
      have hnx := (List.nodup_cons.1 hn).2
      rw [← hxs] at hnx
      have hy : y ∉ xs.takeWhile (same x) := by
        intro hm
        exact (List.nodup_append.1 hnx).2.2 y hm y (by simp) rfl
      have h2 := ih (List.nodup_append.1 hnx).2.1 (by simp)
      rw [show stdUnique same (y :: ys) = y :: (stdUnique same (y :: ys)).tail from rfl, multiplicities, List.tail_cons]
      have : countUntil y xs = some ((xs.takeWhile (same x)).length + 1, y :: ys) := by
        conv_lhs => rw [← hxs]
        exact countUntil_append _ _ _ hy
      rw [this]
      simp only [h2]
      simp

theorem uniqueIndices_eq_groups (same : ℕ → ℕ → Bool) (l : List ℕ) (hn : l.Nodup) (hne : l ≠ []) :
    uniqueIndicesAndMultiplicities same l = some ((groups same l).map (fun g => g.headD 0), (groups same l).map List.length) := by
  unfold uniqueIndicesAndMultiplicities
  have h := multiplicities_eq_groups same l hn hne
  rw [← stdUnique_eq_groups same 0 l]
  cases l with
  | nil => exact absurd rfl hne
  | cons x xs =>
    simp only [stdUnique, List.tail_cons] at h ⊢
    rw [h]; rfl

variable {K : Type} [Field K] [LinearOrder K] [IsStrictOrderedRing K]

/-- in a sorted list, a run is exactly the elements in an interval of length `eps`, and the first elements of the runs are `eps` apart -/
theorem groups_sorted {α : Type} (v : α → K) (eps : K) (heps : 0 < eps) (l : List α) (hs : l.Pairwise (fun a b => v a ≤ v b)) :
    (∀ g ∈ groups (fun a b => close eps (v a) (v b)) l, ∃ h t, g = h :: t ∧ g = l.filter (fun x => decide (v h ≤ v x ∧ v x < v h + eps))) ∧
    ∀ d : α, ((groups (fun a b => close eps (v a) (v b)) l).map (fun g => g.headD d)).Pairwise (fun a b => v a + eps ≤ v b) := by
  induction l using groups.induct (fun a b => close eps (v a) (v b)) with
  | case1 => simp [groups]
  | case2 x xs ih =>
    obtain ⟨hx, hxs⟩ := List.pairwise_cons.1 hs
    have hsame : ∀ y ∈ xs, (close eps (v x) (v y) = true ↔ v y < v x + eps) := by
      intro y hy
      unfold close
      rw [decide_eq_true_eq, abs_sub_comm, abs_of_nonneg (by linarith [hx y hy])]
      constructor <;> intro <;> linarith
    have hsplit : xs.takeWhile (fun b => close eps (v x) (v b)) ++ xs.dropWhile (fun b => close eps (v x) (v b)) = xs := List.takeWhile_append_dropWhile
    have htw : ∀ y ∈ xs.takeWhile (fun b => close eps (v x) (v b)), v x ≤ v y ∧ v y < v x + eps := by
      intro y hy
      have hm : y ∈ xs := by rw [← hsplit]; exact List.mem_append_left _ hy
      exact ⟨hx y hm, (hsame y hm).1 (List.all_eq_true.1 (List.all_takeWhile (p := fun b => close eps (v x) (v b)) (l := xs)) y hy)⟩
    have hdw : ∀ y ∈ xs.dropWhile (fun b => close eps (v x) (v b)), v x + eps ≤ v y := by
      intro y hy
      cases hd : xs.dropWhile (fun b => close eps (v x) (v b)) with
      | nil => rw [hd] at hy; simp at hy
      | cons z zs =>
        have hzm : z ∈ xs := by rw [← hsplit, hd]; simp
        have hz : ¬ close eps (v x) (v z) = true := by
          have := List.head?_dropWhile_not (fun b => close eps (v x) (v b)) xs
          rw [hd] at this
          simpa using this
        rw [hsame z hzm] at hz
        have hsd : (z :: zs).Pairwise (fun a b => v a ≤ v b) := by rw [← hd]; exact hxs.sublist (List.dropWhile_sublist _)
        rw [hd] at hy
        rcases List.mem_cons.1 hy with rfl | hy
        · linarith
        · have := (List.pairwise_cons.1 hsd).1 y hy; linarith
    obtain ⟨ih1, ih2⟩ := ih (hxs.sublist (List.dropWhile_sublist _))
    rw [groups]
    constructor
    · intro g hg
      rcases List.mem_cons.1 hg with rfl | hg
      · refine ⟨x, _, rfl, ?_⟩
        rw [List.filter_cons_of_pos (by simp [heps])]
        congr 1
        conv_rhs => rw [← hsplit]
        rw [List.filter_append]
        have h1 : (xs.takeWhile (fun b => close eps (v x) (v b))).filter (fun y => decide (v x ≤ v y ∧ v y < v x + eps))
            = xs.takeWhile (fun b => close eps (v x) (v b)) := by
          rw [List.filter_eq_self]; intro y hy; simpa using htw y hy
        have h2 : (xs.dropWhile (fun b => close eps (v x) (v b))).filter (fun y => decide (v x ≤ v y ∧ v y < v x + eps)) = [] := by
          rw [List.filter_eq_nil_iff]; intro y hy; have := hdw y hy; simp; intro; linarith
        rw [h1, h2, List.append_nil]
      · obtain ⟨h, t, hgt, hf⟩ := ih1 g hg
        refine ⟨h, t, hgt, ?_⟩
        have hmem : h ∈ xs.dropWhile (fun b => close eps (v x) (v b)) := by
          have : h ∈ (groups (fun a b => close eps (v a) (v b)) (xs.dropWhile (fun b => close eps (v x) (v b)))).flatten := by
            rw [List.mem_flatten]; exact ⟨g, hg, by rw [hgt]; simp⟩
          rwa [groups_flatten] at this
        have hxh := hdw h hmem
        rw [List.filter_cons_of_neg (by simp; intro; linarith)]
        rw [hf]
        conv_rhs => rw [← hsplit]
        rw [List.filter_append]
        have h1 : (xs.takeWhile (fun b => close eps (v x) (v b))).filter (fun y => decide (v h ≤ v y ∧ v y < v h + eps)) = [] := by
          rw [List.filter_eq_nil_iff]; intro y hy; have := htw y hy; simp; intro; linarith
        rw [h1, List.nil_append]
    · intro d
      rw [List.map_cons, List.pairwise_cons]
      refine ⟨?_, ih2 d⟩
      intro b hb
      rw [List.mem_map] at hb
      obtain ⟨g, hg, rfl⟩ := hb
      obtain ⟨h, t, hgt, _⟩ := ih1 g hg
      have hmem : h ∈ xs.dropWhile (fun b => close eps (v x) (v b)) := by
        have : h ∈ (groups (fun a b => close eps (v a) (v b)) (xs.dropWhile (fun b => close eps (v x) (v b)))).flatten := by
          rw [List.mem_flatten]; exact ⟨g, hg, by rw [hgt]; simp⟩
        rwa [groups_flatten] at this
      rw [hgt]
      exact hdw h hmem

theorem argSort_perm {α : Type} (le : α → α → Bool) (data : ℕ → α) (n : ℕ) : (argSort le data n).Perm (List.range n) := List.perm_insertionSort _ _

theorem argSort_sorted {α : Type} [LinearOrder α] (data : ℕ → α) (n : ℕ) :
    (argSort (fun a b => decide (a ≤ b)) data n).Pairwise (fun a b => data a ≤ data b) := by
  have : Std.Total (fun a b : ℕ => decide (data a ≤ data b) = true) := ⟨fun a b => by simpa using le_total _ _⟩
  have : IsTrans ℕ (fun a b : ℕ => decide (data a ≤ data b) = true) := ⟨fun a b c => by simpa using le_trans⟩
  unfold argSort
  exact (List.pairwise_insertionSort (fun a b : ℕ => decide (data a ≤ data b) = true) (List.range n)).imp (fun h => by simpa using h)

/-! ### sorted lists with additional elements -/

/-- additional elements that are larger than entry `d` do not change the entries up to `d` -/
theorem sorted_insert_front {α : Type} [LinearOrder α] (d : ℕ) (kv kv' xs : List α) (hs : kv.Pairwise (· ≤ ·)) (hs' : kv'.Pairwise (· ≤ ·))
    (hp : kv'.Perm (kv ++ xs)) (k : α) (hk : kv[d]? = some k) (hx : ∀ x ∈ xs, k < x) : kv'[d]? = some k := by
  induction d generalizing kv kv' with
  | zero =>
    cases kv with
    | nil => simp at hk
    | cons a kv =>
      simp only [List.getElem?_cons_zero, Option.some.injEq] at hk
      subst hk
      cases kv' with
      | nil => exact absurd hp.length_eq (by simp)
      | cons b kv' =>
        have hb : b ∈ (a :: kv) ++ xs := hp.subset (by simp)
        have ha : a ∈ b :: kv' := hp.symm.subset (by simp)
        have h1 : a ≤ b := by
          rcases List.mem_append.1 hb with h | h
          · rcases List.mem_cons.1 h with rfl | h
            · exact le_refl _
            · exact (List.pairwise_cons.1 hs).1 b h
          · exact (hx b h).le
        have h2 : b ≤ a := by
          rcases List.mem_cons.1 ha with rfl | h
          · exact le_refl _
          · exact (List.pairwise_cons.1 hs').1 a h
        simp [le_antisymm h1 h2]
  | succ d ih =>
    cases kv with
    | nil => simp at hk
    | cons a kv =>
      have hk' : kv[d]? = some k := by simpa using hk
      have hak : a ≤ k := (List.pairwise_cons.1 hs).1 k (List.mem_of_getElem? hk')
      cases kv' with
      | nil => exact absurd hp.length_eq (by simp)
      | cons b kv' =>
        have hb : b ∈ (a :: kv) ++ xs := hp.subset (by simp)
        have ha : a ∈ b :: kv' := hp.symm.subset (by simp)
        have h1 : a ≤ b := by
          rcases List.mem_append.1 hb with h | h
          · rcases List.mem_cons.1 h with rfl | h
            · exact le_refl _
            · exact (List.pairwise_cons.1 hs).1 b h
          · exact hak.trans (hx b h).le
        have h2 : b ≤ a := by
          rcases List.mem_cons.1 ha with rfl | h
          · exact le_refl _
          · exact (List.pairwise_cons.1 hs').1 a h
        have hab : a = b := le_antisymm h1 h2
        subst hab
        rw [List.getElem?_cons_succ]
        exact ih kv kv' (List.pairwise_cons.1 hs).2 (List.pairwise_cons.1 hs').2 ((List.perm_cons a).1 (by simpa using hp)) hk'

/-- the same from the end -/
theorem sorted_insert_back {α : Type} [LinearOrder α] (d : ℕ) (kv kv' xs : List α) (hs : kv.Pairwise (· ≤ ·)) (hs' : kv'.Pairwise (· ≤ ·))
    (hp : kv'.Perm (kv ++ xs)) (k : α) (hk : kv.reverse[d]? = some k) (hx : ∀ x ∈ xs, x < k) : kv'.reverse[d]? = some k := by
  refine sorted_insert_front (α := αᵒᵈ) d kv.reverse kv'.reverse xs ?_ ?_ ?_ k hk hx
  · exact List.pairwise_reverse.2 hs
  · exact List.pairwise_reverse.2 hs'
  · exact (List.reverse_perm _).trans (hp.trans (List.Perm.append (List.reverse_perm kv).symm (List.Perm.refl _)))

end Splinepy.Unique
