import Verif.Model.Interfaces
import Verif.Spec.Interfaces
import Mathlib.Algebra.Order.Field.Basic
import Mathlib.Algebra.Order.Field.Rat
import Mathlib.Tactic.Linarith
import Mathlib.Tactic.Ring
import Mathlib.Tactic.Positivity
import Mathlib.Algebra.Order.BigOperators.Group.List

/-!
C11: interface detection connects exactly the coinciding faces.
-/
namespace Splinepy.Interfaces
open Splinepy.Spec
set_option linter.unusedSectionVars false

variable {K : Type} [Field K] [LinearOrder K] [IsStrictOrderedRing K]

/-- `order` lists every point once, with non-decreasing metric (what the stable sort returns) -/
structure Spec.SortedBy (n : ℕ) (metric : ℕ → K) (order : List ℕ) : Prop where
  perm : order.Perm (List.range n)
  sorted : order.Pairwise (fun a b => metric a ≤ metric b)

section sweep
variable {metric : ℕ → K} {dist : ℕ → ℕ → K} {tol : K}

theorem findDuplicate_split {l u : ℕ} {rest : List ℕ} (h : findDuplicate metric dist tol l rest = some u) :
    ∃ pre suf, rest = pre ++ u :: suf ∧ ∀ x ∈ pre, ¬ dist l x < tol * tol := by
  induction rest with
  | nil => simp [findDuplicate] at h
  | cons a rest ih =>
    simp only [findDuplicate] at h
    split_ifs at h with h1 h2
    · have : a = u := by simpa using h
      subst this
      exact ⟨[], rest, rfl, by simp⟩
    · obtain ⟨pre, suf, rfl, hp⟩ := ih h
      refine ⟨a :: pre, suf, rfl, ?_⟩
      intro x hx
      rw [List.mem_cons] at hx
      rcases hx with rfl | hx
      · exact h2
      · exact hp x hx

theorem findDuplicate_some {l u : ℕ} {rest : List ℕ} (h : findDuplicate metric dist tol l rest = some u) :
    u ∈ rest ∧ dist l u < tol * tol := by
  induction rest with
  | nil => simp [findDuplicate] at h
  | cons a rest ih =>
    simp only [findDuplicate] at h
    split_ifs at h with h1 h2
    · have : a = u := by simpa using h
      subst this
      exact ⟨by simp, h2⟩
    · obtain ⟨i1, i2⟩ := ih h
      exact ⟨by simp [i1], i2⟩

/-- the scan stops too early for no partner, because the metric never exceeds the distance -/
theorem findDuplicate_none (hm : ∀ a b, dist a b < tol * tol → metric b - metric a < tol) {l : ℕ} {rest : List ℕ}
    (hs : rest.Pairwise (fun a b => metric a ≤ metric b))
    (h : findDuplicate metric dist tol l rest = none) : ∀ u ∈ rest, ¬ dist l u < tol * tol := by
  induction rest with
  | nil => simp
  | cons a rest ih =>
    rw [List.pairwise_cons] at hs
    simp only [findDuplicate] at h
    split_ifs at h with h1 h2
    · intro u hu
      rw [List.mem_cons] at hu
      rcases hu with rfl | hu
      · exact h2
      · exact ih hs.2 h u hu
    · intro u hu hd
      apply h1
      rw [List.mem_cons] at hu
      have := hm l u hd
      rcases hu with rfl | hu
      · exact this
      · linarith [hs.1 u hu]

/-- the first one in sorted order is found -/
theorem findDuplicate_first (hm : ∀ a b, dist a b < tol * tol → metric b - metric a < tol) {l : ℕ} {pre : List ℕ} {u : ℕ} {suf : List ℕ}
    (hs : (pre ++ u :: suf).Pairwise (fun a b => metric a ≤ metric b))
    (hpre : ∀ x ∈ pre, ¬ dist l x < tol * tol) (hu : dist l u < tol * tol) :
    findDuplicate metric dist tol l (pre ++ u :: suf) = some u := by
  induction pre with
  | nil =>
    simp only [List.nil_append, findDuplicate]
    rw [if_pos (hm l u hu), if_pos hu]
  | cons a pre ih =>
    simp only [List.cons_append, findDuplicate]
    rw [List.cons_append, List.pairwise_cons] at hs
    have ha : metric a - metric l < tol := by
      have h1 := hs.1 u (by simp)
      have h2 := hm l u hu
      linarith
    rw [if_pos ha, if_neg (hpre a (by simp))]
    exact ih hs.2 (fun x hx => hpre x (by simp [hx]))

theorem getD_set_ne {α : Type} (l : List α) (i j : ℕ) (v d : α) (h : i ≠ j) : (l.set i v).getD j d = l.getD j d := by
  simp [List.getD_eq_getElem?_getD, h]

theorem getD_set_eq {α : Type} (l : List α) (i : ℕ) (v d : α) (h : i < l.length) : (l.set i v).getD i d = v := by
  simp [List.getD_eq_getElem?_getD, h]

/-- soundness, no hypotheses on the arrangement: whatever is returned, entries are partners or `-1` -/
theorem sweep_sound (dsymm : ∀ a b, dist a b = dist b a) (todo : List ℕ) (conn res : List Int) (n : ℕ) (hn : conn.length = n)
    (htodo : ∀ x ∈ todo, x < n) (hnd : todo.Nodup)
    (hinv : ∀ i < n, conn.getD i 0 = -2 ∧ i ∈ todo ∨ conn.getD i 0 = -1 ∨ ∃ j < n, conn.getD i 0 = Int.ofNat j ∧ j ≠ i ∧ dist i j < tol * tol)
    (h : sweep metric dist tol todo conn = some res) :
    res.length = n ∧ ∀ i < n, res.getD i 0 = -1 ∨ ∃ j < n, res.getD i 0 = Int.ofNat j ∧ j ≠ i ∧ dist i j < tol * tol := by
  induction todo generalizing conn with
  | nil =>
    simp only [sweep, Option.some.injEq] at h
    subst h
    refine ⟨hn, fun i hi => ?_⟩
    rcases hinv i hi with ⟨_, h⟩ | h
    · simp at h
    · exact h
  | cons l rest ih =>
    have hl := htodo l (by simp)
    rw [List.nodup_cons] at hnd
    simp only [sweep] at h
    split at h
    · rename_i u hu
      obtain ⟨hur, hd⟩ := findDuplicate_some hu
      have hun := htodo u (by simp [hur])
      have hul : u ≠ l := by rintro rfl; exact hnd.1 hur
      split_ifs at h with hc
      refine ih _ (by simp [hn]) (fun x hx => htodo x (by simp [hx])) hnd.2 ?_ h
      intro i hi
      by_cases h1 : u = i
      · subst h1
        right; right
        exact ⟨l, hl, by rw [getD_set_eq _ _ _ _ (by simp; omega)], fun h => hul h.symm, by rw [dsymm]; exact hd⟩
      · rw [getD_set_ne _ _ _ _ _ h1]
        by_cases h2 : l = i
        · subst h2
          right; right
          exact ⟨u, hun, by rw [getD_set_eq _ _ _ _ (by omega)], hul, hd⟩
        · rw [getD_set_ne _ _ _ _ _ h2]
          rcases hinv i hi with ⟨a, b⟩ | h
          · left; exact ⟨a, (List.mem_cons.1 b).resolve_left (fun h => h2 h.symm)⟩
          · right; exact h
    · refine ih _ (by split <;> simp [hn]) (fun x hx => htodo x (by simp [hx])) hnd.2 ?_ h
      intro i hi
      by_cases h2 : l = i
      · subst h2
        split_ifs with hc
        · right; left; rw [getD_set_eq _ _ _ _ (by omega)]
        · rcases hinv l hi with ⟨a, b⟩ | h
          · exact absurd a hc
          · right; exact h
      · have : (if conn.getD l 0 = -2 then conn.set l (-1) else conn).getD i 0 = conn.getD i 0 := by
          split_ifs
          · rw [getD_set_ne _ _ _ _ _ h2]
          · rfl
        rw [this]
        rcases hinv i hi with ⟨a, b⟩ | h
        · left; exact ⟨a, (List.mem_cons.1 b).resolve_left (fun h => h2 h.symm)⟩
        · right; exact h

/-- completeness when no point has two partners -/
theorem sweep_exact (dsymm : ∀ a b, dist a b = dist b a) (hm : ∀ a b, dist a b < tol * tol → metric b - metric a < tol) (n : ℕ)
    (huniq : ∀ i < n, ∀ j < n, ∀ k < n, i ≠ j → i ≠ k → dist i j < tol * tol → dist i k < tol * tol → j = k)
    (done todo : List ℕ) (conn : List Int) (hn : conn.length = n) (hperm : (done ++ todo).Perm (List.range n))
    (hs : todo.Pairwise (fun a b => metric a ≤ metric b))
    (hdone : ∀ i ∈ done, (∃ j < n, i ≠ j ∧ dist i j < tol * tol ∧ conn.getD i 0 = Int.ofNat j) ∨
      ((∀ j < n, i ≠ j → ¬ dist i j < tol * tol) ∧ conn.getD i 0 = -1))
    (htodo : ∀ i ∈ todo, (∃ j ∈ done, dist i j < tol * tol ∧ conn.getD i 0 = Int.ofNat j) ∨
      ((∀ j ∈ done, ¬ dist i j < tol * tol) ∧ conn.getD i 0 = -2)) :
    ∃ res, sweep metric dist tol todo conn = some res ∧ res.length = n ∧
      ∀ i < n, (∃ j < n, i ≠ j ∧ dist i j < tol * tol ∧ res.getD i 0 = Int.ofNat j) ∨
        ((∀ j < n, i ≠ j → ¬ dist i j < tol * tol) ∧ res.getD i 0 = -1) := by
  induction todo generalizing conn done with
  | nil =>
    refine ⟨conn, rfl, hn, fun i hi => hdone i ?_⟩
    have := hperm.mem_iff (a := i)
    simpa [hi] using this
  | cons l rest ih =>
    have hmem : ∀ x, x ∈ done ++ l :: rest ↔ x < n := by intro x; rw [hperm.mem_iff, List.mem_range]
    have hnd : (done ++ l :: rest).Nodup := hperm.nodup_iff.2 List.nodup_range
    rw [List.nodup_append, List.nodup_cons] at hnd
    obtain ⟨hnd1, ⟨hlr, hnd2⟩, hdisj⟩ := hnd
    have hl : l < n := (hmem l).1 (by simp)
    rw [List.pairwise_cons] at hs
    have hperm' : ((done ++ [l]) ++ rest).Perm (List.range n) := by simpa using hperm
    simp only [sweep]
    have hcl := htodo l (by simp)
    split
    · rename_i u hu
      obtain ⟨hur, hd⟩ := findDuplicate_some hu
      have hun : u < n := (hmem u).1 (by simp [hur])
      have hul : l ≠ u := by rintro rfl; exact hlr hur
      have hudone : u ∉ done := fun h => hdisj u h u (by simp [hur]) rfl
      have hldone : l ∉ done := fun h => hdisj l h l (by simp) rfl
      -- the point has no partner among the processed ones
      have hfree : (∀ j ∈ done, ¬ dist l j < tol * tol) ∧ conn.getD l 0 = -2 := by
        rcases hcl with ⟨j, hj, hdj, _⟩ | h
        · have hjn : j < n := (hmem j).1 (by simp [hj])
          have : j = u := huniq l hl j hjn u hun (by rintro rfl; exact hldone hj) hul hdj hd
          exact absurd (this ▸ hj) hudone
        · exact h
      rw [if_neg (not_not.2 hfree.2)]
      refine ih (done ++ [l]) _ (by simp [hn]) hperm' hs.2 ?_ ?_
      · intro i hi
        rw [List.mem_append, List.mem_singleton] at hi
        rcases hi with hi | rfl
        · have h1 : u ≠ i := by rintro rfl; exact hudone hi
          have h2 : l ≠ i := by rintro rfl; exact hldone hi
          rw [getD_set_ne _ _ _ _ _ h1, getD_set_ne _ _ _ _ _ h2]
          exact hdone i hi
        · left
          refine ⟨u, hun, hul, hd, ?_⟩
          rw [getD_set_ne _ _ _ _ _ hul.symm, getD_set_eq _ _ _ _ (by omega)]
      · intro i hi
        by_cases h1 : u = i
        · subst h1
          left
          exact ⟨l, by simp, by rw [dsymm]; exact hd, by rw [getD_set_eq _ _ _ _ (by simp; omega)]⟩
        · have h2 : l ≠ i := by rintro rfl; exact hlr hi
          have hin : i < n := (hmem i).1 (by simp [hi])
          rw [getD_set_ne _ _ _ _ _ h1, getD_set_ne _ _ _ _ _ h2]
          rcases htodo i (by simp [hi]) with ⟨j, hj, hdj⟩ | ⟨hnone, hc⟩
          · left; exact ⟨j, by simp [hj], hdj⟩
          · right
            refine ⟨?_, hc⟩
            intro j hj
            rw [List.mem_append, List.mem_singleton] at hj
            rcases hj with hj | rfl
            · exact hnone j hj
            · intro hdi
              exact h1 (huniq j hl u hun i hin hul h2 hd (by rw [dsymm]; exact hdi))
    · rename_i hnone
      have hnn := findDuplicate_none hm hs.2 hnone
      have hldone : l ∉ done := fun h => hdisj l h l (by simp) rfl
      refine ih (done ++ [l]) _ (by split <;> simp [hn]) hperm' hs.2 ?_ ?_
      · intro i hi
        rw [List.mem_append, List.mem_singleton] at hi
        rcases hi with hi | rfl
        · have h2 : l ≠ i := by rintro rfl; exact hldone hi
          have : (if conn.getD l 0 = -2 then conn.set l (-1) else conn).getD i 0 = conn.getD i 0 := by
            split_ifs
            · rw [getD_set_ne _ _ _ _ _ h2]
            · rfl
          rw [this]
          exact hdone i hi
        · rcases hcl with ⟨j, hj, hdj, hc⟩ | ⟨hno, hc⟩
          · left
            refine ⟨j, (hmem j).1 (by simp [hj]), by rintro rfl; exact hldone hj, hdj, ?_⟩
            rw [if_neg (by rw [hc]; simp), hc]
          · right
            rw [if_pos hc, getD_set_eq _ _ _ _ (by omega)]
            refine ⟨?_, rfl⟩
            intro j hj hij
            have := (hmem j).2 hj
            rw [List.mem_append, List.mem_cons] at this
            rcases this with h | h | h
            · exact hno j h
            · exact absurd h.symm hij
            · exact hnn j h
      · intro i hi
        have h2 : l ≠ i := by rintro rfl; exact hlr hi
        have : (if conn.getD l 0 = -2 then conn.set l (-1) else conn).getD i 0 = conn.getD i 0 := by
          split_ifs
          · rw [getD_set_ne _ _ _ _ _ h2]
          · rfl
        rw [this]
        rcases htodo i (by simp [hi]) with ⟨j, hj, hdj⟩ | ⟨hno, hc⟩
        · left; exact ⟨j, by simp [hj], hdj⟩
        · right
          refine ⟨?_, hc⟩
          intro j hj
          rw [List.mem_append, List.mem_singleton] at hj
          rcases hj with hj | rfl
          · exact hno j hj
          · rw [dsymm]; exact hnn i hi

/-- a point that already has a neighbour and finds another one is rejected -/
theorem sweep_conflict (hm : ∀ a b, dist a b < tol * tol → metric b - metric a < tol) (pre suf : List ℕ) (l w : ℕ) (conn : List Int) (n : ℕ)
    (hn : conn.length = n) (hlt : ∀ x ∈ pre ++ l :: suf, x < n)
    (hs : (pre ++ l :: suf).Pairwise (fun a b => metric a ≤ metric b)) (hw : w ∈ suf) (hd : dist l w < tol * tol) (hc : conn.getD l 0 ≠ -2) :
    sweep metric dist tol (pre ++ l :: suf) conn = none := by
  induction pre generalizing conn with
  | nil =>
    rw [List.nil_append, List.pairwise_cons] at hs
    simp only [List.nil_append, sweep]
    split
    · rw [if_pos hc]
    · rename_i h
      exact absurd hd (findDuplicate_none hm hs.2 h w hw)
  | cons a pre ih =>
    rw [List.cons_append, List.pairwise_cons] at hs
    have hl : l < n := hlt l (by simp)
    have hlt' : ∀ x ∈ pre ++ l :: suf, x < n := fun x hx => hlt x (by simp only [List.cons_append, List.mem_cons]; exact Or.inr hx)
    simp only [List.cons_append, sweep]
    split
    · rename_i u hu
      split_ifs with h1
      · rfl
      · apply ih _ (by simp [hn]) hlt' hs.2
        by_cases h2 : u = l
        · subst h2
          rw [getD_set_eq _ _ _ _ (by simp; omega)]; simp
        · rw [getD_set_ne _ _ _ _ _ h2]
          by_cases h3 : a = l
          · subst h3
            rw [getD_set_eq _ _ _ _ (by omega)]; simp
          · rw [getD_set_ne _ _ _ _ _ h3]; exact hc
    · apply ih _ (by split <;> simp [hn]) hlt' hs.2
      split_ifs with h1
      · by_cases h3 : a = l
        · subst h3
          rw [getD_set_eq _ _ _ _ (by omega)]; simp
        · rw [getD_set_ne _ _ _ _ _ h3]; exact hc
      · exact hc

theorem sweep_triple (dsymm : ∀ a b, dist a b = dist b a) (hm : ∀ a b, dist a b < tol * tol → metric b - metric a < tol) (n : ℕ)
    (htrans : ∀ a < n, ∀ b < n, ∀ c < n, dist a b < tol * tol → dist b c < tol * tol → dist a c < tol * tol)
    (todo : List ℕ) (conn : List Int) (hn : conn.length = n) (hlt : ∀ x ∈ todo, x < n) (hnd : todo.Nodup)
    (hs : todo.Pairwise (fun a b => metric a ≤ metric b)) (i j k : ℕ) (hi : i ∈ todo) (hj : j ∈ todo) (hk : k ∈ todo) (hij : i ≠ j) (hik : i ≠ k)
    (hjk : j ≠ k) (dij : dist i j < tol * tol) (dik : dist i k < tol * tol) :
    sweep metric dist tol todo conn = none := by
  -- the first of the three is the head
  have key : ∀ (a : ℕ) (rest : List ℕ) (conn : List Int), conn.length = n → (∀ x ∈ a :: rest, x < n) → (a :: rest).Nodup →
      (a :: rest).Pairwise (fun a b => metric a ≤ metric b) → ∀ b c, b ∈ rest → c ∈ rest → b ≠ c → dist a b < tol * tol → dist a c < tol * tol →
      sweep metric dist tol (a :: rest) conn = none := by
    intro a rest conn hn hlt hnd hs b c hb hc hbc dab dac
    rw [List.pairwise_cons] at hs
    have ha := hlt a (by simp)
    simp only [sweep]
    split
    · rename_i u hu
      obtain ⟨pre, suf, rfl, hpre⟩ := findDuplicate_split hu
      obtain ⟨_, dau⟩ := findDuplicate_some hu
      have hun : u < n := hlt u (by simp)
      split_ifs with h1
      · rfl
      · have hw : ∃ w ∈ suf, dist a w < tol * tol := by
          have mem : ∀ x, x ∈ pre ++ u :: suf → dist a x < tol * tol → x ≠ u → x ∈ suf := by
            intro x hx hd hxu
            rw [List.mem_append, List.mem_cons] at hx
            rcases hx with hx | hx | hx
            · exact absurd hd (hpre x hx)
            · exact absurd hx hxu
            · exact hx
          by_cases h2 : b = u
          · exact ⟨c, mem c hc dac (fun h => hbc (h2.trans h.symm)), dac⟩
          · exact ⟨b, mem b hb dab h2, dab⟩
        obtain ⟨w, hw, daw⟩ := hw
        have hwn : w < n := hlt w (by simp [hw])
        refine sweep_conflict hm pre suf u w _ n (by simp [hn]) (fun x hx => hlt x (by simp only [List.mem_cons]; exact Or.inr hx)) hs.2 hw
          (htrans u hun a ha w hwn (by rw [dsymm]; exact dau) daw) ?_
        rw [getD_set_eq _ _ _ _ (by simp; omega)]; simp
    · rename_i h
      exact absurd dab (findDuplicate_none hm hs.2 h b hb)
  induction todo generalizing conn with
  | nil => simp at hi
  | cons x rest ih =>
    have hin := hlt i hi
    have hjn := hlt j hj
    have hkn := hlt k hk
    have dji : dist j i < tol * tol := by rw [dsymm]; exact dij
    have dki : dist k i < tol * tol := by rw [dsymm]; exact dik
    have djk : dist j k < tol * tol := htrans j hjn i hin k hkn dji dik
    have dkj : dist k j < tol * tol := by rw [dsymm]; exact djk
    have mem : ∀ y, y ∈ x :: rest → y ≠ x → y ∈ rest := fun y hy hne => (List.mem_cons.1 hy).resolve_left hne
    by_cases h1 : i = x
    · subst h1
      exact key i rest conn hn hlt hnd hs j k (mem j hj hij.symm) (mem k hk hik.symm) hjk dij dik
    by_cases h2 : j = x
    · subst h2
      exact key j rest conn hn hlt hnd hs i k (mem i hi h1) (mem k hk hjk.symm) hik dji djk
    by_cases h3 : k = x
    · subst h3
      exact key k rest conn hn hlt hnd hs i j (mem i hi h1) (mem j hj h2) hij dki dkj
    rw [List.nodup_cons] at hnd
    rw [List.pairwise_cons] at hs
    have hrec : ∀ conn : List Int, conn.length = n → sweep metric dist tol rest conn = none := fun conn hn =>
      ih conn hn (fun y hy => hlt y (by simp [hy])) hnd.2 hs.2 (mem i hi h1) (mem j hj h2) (mem k hk h3)
    simp only [sweep]
    split
    · split_ifs
      · rfl
      · exact hrec _ (by simp [hn])
    · exact hrec _ (by split <;> simp [hn])

end sweep

section metric

theorem foldl_sum (n : ℕ) (f : ℕ → K) : (List.range n).foldl (fun acc k => acc + f k) 0 = ((List.range n).map f).sum := by
  have : ∀ (l : List ℕ) (z : K), l.foldl (fun acc k => acc + f k) z = z + (l.map f).sum := by
    intro l
    induction l with
    | nil => simp
    | cons a l ih => intro z; rw [List.foldl_cons, ih]; simp [add_assoc]
  rw [this]; simp

theorem squaredDistance_eq (dim : ℕ) (pts : List (List K)) (i j : ℕ) :
    squaredDistance dim pts i j = ((List.range dim).map (fun k => ((pts.getD j []).getD k 0 - (pts.getD i []).getD k 0) ^ 2)).sum := by
  unfold squaredDistance
  have h := foldl_sum dim (fun k => ((pts.getD j []).getD k 0 - (pts.getD i []).getD k 0) ^ 2)
  rw [← h]
  congr 1
  funext acc k
  simp only; ring

theorem squaredDistance_symm (dim : ℕ) (pts : List (List K)) (i j : ℕ) : squaredDistance dim pts i j = squaredDistance dim pts j i := by
  rw [squaredDistance_eq, squaredDistance_eq]
  congr 1
  apply List.map_congr_left
  intro k _
  ring

theorem squaredDistance_distSq {dim : ℕ} {pts : List (List K)} (hrows : ∀ p ∈ pts, p.length = dim) {i j : ℕ} (hi : i < pts.length)
    (hj : j < pts.length) : squaredDistance dim pts i j = distSq (pts.getD i []) (pts.getD j []) := by
  rw [squaredDistance_eq]
  unfold distSq
  rw [List.getD_eq_getElem _ _ hi, List.getD_eq_getElem _ _ hj]
  have h1 := hrows _ (List.getElem_mem hi)
  have h2 := hrows _ (List.getElem_mem hj)
  congr 1
  apply List.ext_getElem
  · simp [h1, h2]
  · intro k hk1 hk2
    simp only [List.length_map, List.length_range] at hk1
    simp only [List.getElem_map, List.getElem_range, List.getElem_zipWith]
    rw [List.getD_eq_getElem _ _ (by omega), List.getD_eq_getElem _ _ (by omega)]
    ring

theorem scalarMetric_eq (nm : List K) (v : List K) (_h : 0 < nm.length) :
    scalarMetric nm v = nm.getD (nm.length - 1) 0 * v.getD (nm.length - 1) 0 := by
  unfold scalarMetric
  have : ∀ (m : ℕ) (z : K) (f : ℕ → K), (List.range m).foldl (fun _ j => f (j + 1)) z = if m = 0 then z else f m := by
    intro m z f
    cases m with
    | zero => simp
    | succ m => rw [List.range_succ, List.foldl_append]; simp
  rw [this (nm.length - 1) _ (fun j => nm.getD j 0 * v.getD j 0)]
  split_ifs with h0
  · rw [h0]
  · rfl

theorem le_sum_of_mem {l : List K} (h : ∀ x ∈ l, 0 ≤ x) {a : K} (ha : a ∈ l) : a ≤ l.sum :=
  List.single_le_sum h a ha

theorem normedMetric_sq {sqrt : K → K} {eps : K} {metric : List K} (heps : 0 < eps)
    (hs : sqrt (metric.map (fun m => m * m)).sum * sqrt (metric.map (fun m => m * m)).sum = (metric.map (fun m => m * m)).sum) :
    ∀ c ∈ normedMetric sqrt eps metric, c ^ 2 ≤ 1 := by
  unfold normedMetric
  intro c hc
  simp only at hc
  split_ifs at hc with h
  · rw [List.mem_map] at hc
    obtain ⟨_, _, rfl⟩ := hc
    norm_num
  · rw [List.mem_map] at hc
    obtain ⟨m, hm, rfl⟩ := hc
    have hle : m * m ≤ (metric.map (fun m => m * m)).sum :=
      le_sum_of_mem (by intro x hx; rw [List.mem_map] at hx; obtain ⟨y, _, rfl⟩ := hx; exact mul_self_nonneg y)
        (List.mem_map.2 ⟨m, hm, rfl⟩)
    have hpos : 0 < sqrt (metric.map (fun m => m * m)).sum := lt_of_lt_of_le heps (not_lt.1 h)
    generalize sqrt (metric.map (fun m => m * m)).sum = s at *
    rw [← hs] at hle
    have : (m * (1 / s)) ^ 2 = m * m / (s * s) := by ring
    rw [this]
    exact div_le_one_of_le₀ hle (by positivity)

/-- the difference of scalar metrics of close points is below the tolerance -/
theorem metric_lipschitz {nm : List K} {dim : ℕ} (hd : 0 < dim) (hnm : nm.length = dim) (h1 : ∀ c ∈ nm, c ^ 2 ≤ 1) (pts : List (List K)) {tol : K}
    (htol : 0 < tol) (a b : ℕ) (h : squaredDistance dim pts a b < tol * tol) :
    scalarMetric nm (pts.getD b []) - scalarMetric nm (pts.getD a []) < tol := by
  rw [scalarMetric_eq _ _ (by omega), scalarMetric_eq _ _ (by omega), hnm]
  rw [squaredDistance_eq] at h
  have hle : ((pts.getD b []).getD (dim - 1) 0 - (pts.getD a []).getD (dim - 1) 0) ^ 2 ≤
      ((List.range dim).map (fun k => ((pts.getD b []).getD k 0 - (pts.getD a []).getD k 0) ^ 2)).sum :=
    le_sum_of_mem (by intro x hx; rw [List.mem_map] at hx; obtain ⟨y, _, rfl⟩ := hx; exact sq_nonneg _)
      (List.mem_map.2 ⟨dim - 1, List.mem_range.2 (by omega), rfl⟩)
  have hc : (nm.getD (dim - 1) 0) ^ 2 ≤ 1 := by
    rw [List.getD_eq_getElem _ _ (by omega)]
    exact h1 _ (List.getElem_mem _)
  generalize nm.getD (dim - 1) 0 = c at *
  generalize (pts.getD b []).getD (dim - 1) 0 = y at *
  generalize (pts.getD a []).getD (dim - 1) 0 = x at *
  have hsq : (c * (y - x)) ^ 2 < tol ^ 2 := by
    have h3 : (c * (y - x)) ^ 2 ≤ (y - x) ^ 2 := by
      rw [mul_pow]
      calc c ^ 2 * (y - x) ^ 2 ≤ 1 * (y - x) ^ 2 := mul_le_mul_of_nonneg_right hc (sq_nonneg _)
        _ = _ := one_mul _
    calc (c * (y - x)) ^ 2 ≤ (y - x) ^ 2 := h3
      _ ≤ _ := hle
      _ < tol * tol := h
      _ = tol ^ 2 := by ring
  have := lt_of_pow_lt_pow_left₀ 2 htol.le hsq
  linarith

end metric

/-- What is required of a call: at least one face, faces come in complete patches, rows have the physical dimension, the tolerance is positive,
`sqrt` is right on the one number it is applied to, and `order` sorts by the scalar metric (last component of the normalised extents). -/
structure Spec.Call (sqrt : K → K) (eps : K) (order : List ℕ) (pts : List (List K)) (tol : K) (paraDim dim : ℕ) : Prop where
  paraDim_pos : 0 < paraDim
  dim_pos : 0 < dim
  nonempty : 0 < pts.length
  patches : pts.length % (paraDim * 2) = 0
  rows : ∀ p ∈ pts, p.length = dim
  tol_pos : 0 < tol
  eps_pos : 0 < eps
  sqrt_sq : sqrt ((extents dim pts).map (fun m => m * m)).sum * sqrt ((extents dim pts).map (fun m => m * m)).sum =
    ((extents dim pts).map (fun m => m * m)).sum
  ordered : Spec.SortedBy pts.length (fun i => scalarMetric (normedMetric sqrt eps (extents dim pts)) (pts.getD i [])) order

section final
variable {sqrt : K → K} {eps : K} {order : List ℕ} {pts : List (List K)} {tol : K} {paraDim dim : ℕ}

theorem call_eq (H : Spec.Call sqrt eps order pts tol paraDim dim) :
    interfacesFromBoundaryCenters sqrt eps order pts tol paraDim dim =
      sweep (fun i => scalarMetric (normedMetric sqrt eps (extents dim pts)) (pts.getD i [])) (squaredDistance dim pts) tol order
        (List.replicate pts.length (-2)) := by
  unfold interfacesFromBoundaryCenters findConnectivity
  have h1 := H.paraDim_pos
  have h2 := H.dim_pos
  have h3 := H.nonempty
  simp only
  rw [if_neg (by omega), if_neg (by simp [H.patches]), if_neg (by simp [extents])]

theorem call_lipschitz (H : Spec.Call sqrt eps order pts tol paraDim dim) (a b : ℕ) (h : squaredDistance dim pts a b < tol * tol) :
    scalarMetric (normedMetric sqrt eps (extents dim pts)) (pts.getD b []) - scalarMetric (normedMetric sqrt eps (extents dim pts)) (pts.getD a []) < tol :=
  metric_lipschitz H.dim_pos (by unfold normedMetric; simp only; split_ifs <;> simp [extents]) (normedMetric_sq H.eps_pos H.sqrt_sq) pts H.tol_pos a b h

theorem partner_iff (H : Spec.Call sqrt eps order pts tol paraDim dim) {i j : ℕ} (hi : i < pts.length) :
    Partner pts tol i j ↔ j < pts.length ∧ i ≠ j ∧ squaredDistance dim pts i j < tol * tol := by
  unfold Partner
  constructor
  · rintro ⟨_, h2, h3, h4⟩
    exact ⟨h2, h3, by rw [squaredDistance_distSq H.rows hi h2]; exact h4⟩
  · rintro ⟨h2, h3, h4⟩
    exact ⟨hi, h2, h3, by rw [← squaredDistance_distSq H.rows hi h2]; exact h4⟩

/-- C11: if no face coincides with two others, the detection succeeds, a face is connected to `j` exactly if `j` is its coinciding face, and it is
marked `-1` exactly if there is none. -/
theorem interfaces_exact_partial (H : Spec.Call sqrt eps order pts tol paraDim dim)
    (huniq : ∀ i j k, Partner pts tol i j → Partner pts tol i k → j = k) :
    ∃ res, interfacesFromBoundaryCenters sqrt eps order pts tol paraDim dim = some res ∧ res.length = pts.length ∧
      ∀ i < pts.length, (∀ j : ℕ, res.getD i 0 = Int.ofNat j ↔ Partner pts tol i j) ∧ (res.getD i 0 = -1 ↔ ¬ ∃ j, Partner pts tol i j) ∧
        (res.getD i 0 = -1 ∨ 0 ≤ res.getD i 0) := by
  rw [call_eq H]
  obtain ⟨res, h1, h2, h3⟩ := sweep_exact (squaredDistance_symm dim pts) (call_lipschitz H) pts.length (by
    intro i hi j hj k hk hij hik d1 d2
    exact huniq i j k ((partner_iff H hi).2 ⟨hj, hij, d1⟩) ((partner_iff H hi).2 ⟨hk, hik, d2⟩)) [] order (List.replicate pts.length (-2)) (by simp)
    (by simpa using H.ordered.perm) H.ordered.sorted (by simp) (by
      intro i hi
      right
      have hi' : i < pts.length := by simpa using H.ordered.perm.mem_iff.1 hi
      exact ⟨by simp, by rw [List.getD_eq_getElem _ _ (by simpa using hi')]; simp⟩)
  refine ⟨res, h1, h2, ?_⟩
  intro i hi
  rcases h3 i hi with ⟨j, hj, hij, hd, hres⟩ | ⟨hno, hres⟩
  · have hp := (partner_iff H hi).2 ⟨hj, hij, hd⟩
    rw [hres]
    refine ⟨fun k => ⟨fun h => ?_, fun h => ?_⟩, ⟨fun h => ?_, fun h => absurd ⟨j, hp⟩ h⟩, Or.inr (Int.natCast_nonneg j)⟩
    · have : j = k := by simpa using h
      exact this ▸ hp
    · rw [huniq i j k hp h]
    · exact absurd h (by simp)
  · rw [hres]
    have hnp : ¬ ∃ j, Partner pts tol i j := by
      rintro ⟨j, hp⟩
      obtain ⟨a, b, c⟩ := (partner_iff H hi).1 hp
      exact hno j a b c
    refine ⟨fun k => ⟨fun h => ?_, fun h => absurd ⟨k, h⟩ hnp⟩, ⟨fun _ => hnp, fun _ => rfl⟩, Or.inl rfl⟩
    exact absurd h (by simp)

theorem partner_symm (H : Spec.Call sqrt eps order pts tol paraDim dim) {i j : ℕ} (h : Partner pts tol i j) : Partner pts tol j i := by
  obtain ⟨a, b, c⟩ := (partner_iff H h.1).1 h
  exact (partner_iff H a).2 ⟨h.1, b.symm, by rw [squaredDistance_symm]; exact c⟩

/-- C11: in that case connections are mutual. -/
theorem interfaces_mutual_partial (H : Spec.Call sqrt eps order pts tol paraDim dim)
    (huniq : ∀ i j k, Partner pts tol i j → Partner pts tol i k → j = k) :
    ∃ res, interfacesFromBoundaryCenters sqrt eps order pts tol paraDim dim = some res ∧
      ∀ i < pts.length, ∀ j : ℕ, res.getD i 0 = Int.ofNat j → j < pts.length ∧ j ≠ i ∧ res.getD j 0 = Int.ofNat i := by
  obtain ⟨res, h1, _, h3⟩ := interfaces_exact_partial H huniq
  refine ⟨res, h1, ?_⟩
  intro i hi j hij
  have hp := ((h3 i hi).1 j).1 hij
  exact ⟨hp.2.1, hp.2.2.1.symm, ((h3 j hp.2.1).1 i).2 (partner_symm H hp)⟩

/-- C11: three coinciding faces are rejected, when closeness is transitive (e.g. coinciding points are equal and all others further apart). -/
theorem interfaces_triple_rejected (H : Spec.Call sqrt eps order pts tol paraDim dim)
    (htrans : ∀ i j k, Partner pts tol i j → Partner pts tol j k → i ≠ k → Partner pts tol i k)
    {i j k : ℕ} (hij : Partner pts tol i j) (hik : Partner pts tol i k) (hjk : j ≠ k) :
    interfacesFromBoundaryCenters sqrt eps order pts tol paraDim dim = none := by
  rw [call_eq H]
  have hzero : ∀ a, squaredDistance dim pts a a < tol * tol := by
    intro a
    rw [squaredDistance_eq]
    have ht := H.tol_pos
    have : ((List.range dim).map (fun k => ((pts.getD a []).getD k 0 - (pts.getD a []).getD k 0) ^ 2)).sum = 0 := by
      simp
    rw [this]; positivity
  have hi := hij.1
  obtain ⟨j1, j2, j3⟩ := (partner_iff H hi).1 hij
  obtain ⟨k1, k2, k3⟩ := (partner_iff H hi).1 hik
  have hmem : ∀ x, x < pts.length → x ∈ order := fun x hx => H.ordered.perm.mem_iff.2 (List.mem_range.2 hx)
  refine sweep_triple (squaredDistance_symm dim pts) (call_lipschitz H) pts.length ?_ order _ (by simp)
    (fun x hx => by simpa using H.ordered.perm.mem_iff.1 hx) (H.ordered.perm.nodup_iff.2 List.nodup_range) H.ordered.sorted i j k (hmem i hi) (hmem j j1)
    (hmem k k1) j2 k2 hjk j3 k3
  intro a ha b hb c hc dab dbc
  by_cases h1 : a = c
  · subst h1; exact hzero a
  by_cases h2 : a = b
  · subst h2; exact dbc
  by_cases h3 : b = c
  · subst h3; exact dab
  exact ((partner_iff H ha).1 (htrans a b c ((partner_iff H ha).2 ⟨hb, h2, dab⟩) ((partner_iff H hb).2 ⟨hc, h3, dbc⟩) h1)).2.2

/-- C11, any arrangement: whatever is returned, a face is either marked `-1` or connected to a coinciding face. -/
theorem interfaces_sound (H : Spec.Call sqrt eps order pts tol paraDim dim) {res : List Int}
    (h : interfacesFromBoundaryCenters sqrt eps order pts tol paraDim dim = some res) :
    res.length = pts.length ∧ ∀ i < pts.length, res.getD i 0 = -1 ∨ ∃ j, res.getD i 0 = Int.ofNat j ∧ Partner pts tol i j := by
  rw [call_eq H] at h
  obtain ⟨h1, h2⟩ := sweep_sound (squaredDistance_symm dim pts) order _ res pts.length (by simp)
    (fun x hx => by simpa using H.ordered.perm.mem_iff.1 hx) (H.ordered.perm.nodup_iff.2 List.nodup_range) (by
      intro i hi
      left
      exact ⟨by rw [List.getD_eq_getElem _ _ (by simpa using hi)]; simp, H.ordered.perm.mem_iff.2 (List.mem_range.2 hi)⟩) h
  refine ⟨h1, fun i hi => ?_⟩
  rcases h2 i hi with h | ⟨j, hj, hr, hne, hd⟩
  · exact Or.inl h
  · exact Or.inr ⟨j, hr, (partner_iff H hi).2 ⟨hj, hne.symm, hd⟩⟩

/-- C11: input that is not made of complete patches is rejected. -/
theorem interfaces_incomplete_rejected (h : pts.length % (paraDim * 2) ≠ 0) :
    interfacesFromBoundaryCenters sqrt eps order pts tol paraDim dim = none := by
  unfold interfacesFromBoundaryCenters findConnectivity
  simp only
  split_ifs
  · rfl
  · rfl

end final

/-- two patches with two faces each (one parametric dimension, plane): faces 1 and 2 coincide up to 1/10 -/
def examplePts : List (List ℚ) := [[0, 0], [3/2, 0], [3/2, 1/10], [30, 40]]

/-- hypotheses are met by `examplePts`; result of the model -/
example : Spec.Call (fun _ => 50) (1/100) [0, 1, 2, 3] examplePts 1 1 2 ∧
    (∀ i j k, Partner examplePts 1 i j → Partner examplePts 1 i k → j = k) ∧
    interfacesFromBoundaryCenters (fun _ => 50) (1/100) [0, 1, 2, 3] examplePts 1 1 2 = some [-1, 2, 1, -1] := by
  refine ⟨⟨by decide, by decide, by decide, by decide, by decide, by decide +kernel, by decide +kernel, by decide +kernel,
    ⟨by decide, by decide +kernel⟩⟩, ?_, by decide +kernel⟩
  intro i j k h1 h2
  have hl : examplePts.length = 4 := rfl
  obtain ⟨a1, a2, a3, a4⟩ := h1
  obtain ⟨b1, b2, b3, b4⟩ := h2
  rw [hl] at a1 a2 b2
  have : ∀ i j k : Fin 4, (i.1 ≠ j.1 ∧ distSq (examplePts.getD i.1 []) (examplePts.getD j.1 []) < 1 * 1 ∧ i.1 ≠ k.1 ∧
      distSq (examplePts.getD i.1 []) (examplePts.getD k.1 []) < 1 * 1) → j.1 = k.1 := by decide +kernel
  exact this ⟨i, a1⟩ ⟨j, a2⟩ ⟨k, b2⟩ ⟨a3, a4, b3, b4⟩

/-- C11 is violated when closeness is not transitive: no exception is raised, face 0 points to face 2, but face 2 points to face 1. -/
theorem interfaces_mutual_violates :
    ∃ (pts : List (List ℚ)) (order : List ℕ) (res : List Int), Spec.Call (fun _ => 50) (1/100) order pts 1 1 2 ∧
      interfacesFromBoundaryCenters (fun _ => 50) (1/100) order pts 1 1 2 = some res ∧ res.getD 0 0 = 2 ∧ res.getD 2 0 ≠ 0 := by
  refine ⟨[[0, 0], [3/2, 0], [3/4, 1/10], [30, 40]], [0, 1, 2, 3], [2, 2, 1, -1], ?_, by decide +kernel, by decide, by decide⟩
  exact ⟨by decide, by decide, by decide, by decide, by decide, by decide +kernel, by decide +kernel, by decide +kernel,
    ⟨by decide, by decide +kernel⟩⟩

/-- C11: three faces in the same place (hypotheses of `interfaces_triple_rejected`) -/
example : Spec.Call (fun _ => 50) (1/100) [0, 1, 2, 3] ([[0, 0], [0, 0], [0, 0], [30, 40]] : List (List ℚ)) 1 1 2 ∧
    interfacesFromBoundaryCenters (fun _ => 50) (1/100) [0, 1, 2, 3] ([[0, 0], [0, 0], [0, 0], [30, 40]] : List (List ℚ)) 1 1 2 = none := by
  refine ⟨⟨by decide, by decide, by decide, by decide, by decide, by decide +kernel, by decide +kernel, by decide +kernel,
    ⟨by decide, by decide +kernel⟩⟩, by decide +kernel⟩

end Splinepy.Interfaces
