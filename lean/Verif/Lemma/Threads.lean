import Verif.Model.Threads
import Verif.Spec.Schedule
import Mathlib.Data.List.Nodup
import Mathlib.Data.List.Flatten
import Mathlib.Tactic.Linarith
import Mathlib.Tactic.Ring

namespace Splinepy.Threads
open Splinepy.Spec

theorem schedule_perm {α : Type*} {ts : List (List α)} {tr : List α} (h : Schedule ts tr) :
    tr.Perm ts.flatten := by
  induction h with
  | done ts h =>
    have : ts.flatten = [] := by simpa [List.flatten_eq_nil_iff] using h
    rw [this]
  | step pre post x xs tr _ ih =>
    have h1 : (pre ++ (x :: xs) :: post).flatten = pre.flatten ++ (x :: (xs ++ post.flatten)) := by
      simp
    rw [h1]
    refine (List.Perm.cons x ih).trans ?_
    simp only [List.flatten_append, List.flatten_cons]
    exact (List.perm_middle).symm

theorem range_chunks (m c : ℕ) :
    ((List.range m).map (fun i => List.range' (i * c) c)).flatten = List.range (m * c) := by
  induction m with
  | zero => simp
  | succ m ih =>
    rw [List.range_succ, List.map_append, List.flatten_append, ih]
    simp only [List.map_cons, List.map_nil, List.flatten_cons, List.flatten_nil, List.append_nil]
    rw [List.range_eq_range', List.range_eq_range']
    have := @List.range'_append 0 (m*c) c 1
    simp only [Nat.zero_add, Nat.one_mul] at this
    rw [this]; congr 1; ring

theorem runWrites_of_not_mem {α : Type*} (ws : List (Write α)) (mem : ℕ → Option α) (k : ℕ)
    (h : k ∉ ws.map Prod.fst) : runWrites mem ws k = mem k := by
  induction ws generalizing mem with
  | nil => rfl
  | cons w ws ih =>
    simp only [List.map_cons, List.mem_cons, not_or] at h
    rw [runWrites, ih _ h.2, if_neg h.1]

theorem runWrites_of_nodup {α : Type*} (ws : List (Write α)) (mem : ℕ → Option α) (k : ℕ) (v : α)
    (hn : (ws.map Prod.fst).Nodup) (h : (k, v) ∈ ws) : runWrites mem ws k = some v := by
  induction ws generalizing mem with
  | nil => simp at h
  | cons w ws ih =>
    rw [List.map_cons, List.nodup_cons] at hn
    rw [runWrites]
    rcases List.mem_cons.1 h with h | h
    · subst h
      rw [runWrites_of_not_mem _ _ _ hn.1]; simp
    · exact ih _ hn.2 h

theorem strided_some (nTotal : ℕ) (s : ℕ) (hs : 0 < s) (i : ℕ) :
    ∃ l, stridedIndices nTotal (s : ℤ) i = some l ∧ l.Nodup ∧
      ∀ k, k ∈ l ↔ i ≤ k ∧ k < nTotal ∧ (k - i) % s = 0 := by
  induction hn : nTotal - i using Nat.strong_induction_on generalizing i with
  | _ n ih =>
    rw [stridedIndices]
    by_cases h : nTotal ≤ i
    · rw [dif_pos h]; exact ⟨[], rfl, List.nodup_nil, by intro k; simp; omega⟩
    · rw [dif_neg h, dif_neg (by omega)]
      obtain ⟨l, hl, hnd, hm⟩ := ih (nTotal - (i + s)) (by omega) (i + s) rfl
      refine ⟨i :: l, ?_, ?_, ?_⟩
      · have : ((s : ℤ)).toNat = s := by simp
        rw [this, hl]; rfl
      · rw [List.nodup_cons]
        refine ⟨fun hi => ?_, hnd⟩
        have := (hm i).1 hi; omega
      · intro k
        rw [List.mem_cons, hm]
        constructor
        · rintro (rfl | ⟨h1, h2, h3⟩)
          · simp; omega
          · refine ⟨by omega, h2, ?_⟩
            have : k - i = (k - (i + s)) + s := by omega
            rw [this, Nat.add_mod_right, h3]
        · rintro ⟨h1, h2, h3⟩
          by_cases hk : k = i
          · exact Or.inl hk
          · right
            have h4 : s ≤ k - i := by
              by_contra hc
              rw [Nat.mod_eq_of_lt (by omega)] at h3; omega
            refine ⟨by omega, h2, ?_⟩
            have : k - i = (k - (i + s)) + s := by omega
            rwa [this, Nat.add_mod_right] at h3

theorem mapM_some_of_forall {α β : Type*} (f : α → Option β) (l : List α)
    (h : ∀ a ∈ l, ∃ b, f a = some b) : ∃ r, l.mapM f = some r ∧ List.Forall₂ (fun a b => f a = some b) l r := by
  induction l with
  | nil => exact ⟨[], rfl, List.Forall₂.nil⟩
  | cons a l ih =>
    obtain ⟨b, hb⟩ := h a (by simp)
    obtain ⟨r, hr, hf⟩ := ih (fun x hx => h x (by simp [hx]))
    exact ⟨b :: r, by simp [List.mapM_cons, hb, hr], List.Forall₂.cons hb hf⟩

/-- The thread ids a call starts are `0 … m-1`, with `m = min total nthreads` for two or more threads, and `1` else. -/
theorem nThreadExecution_threads (hw total : ℕ) (s : ℕ) (hs : 1 ≤ s) (ht : 0 < total ∨ s = 1) :
    ∃ jobs m, nThreadExecution hw total (s : ℤ) = some jobs ∧ jobs.map Job.thread = List.range m ∧
      m ≤ s ∧ min total s ≤ m := by
  unfold nThreadExecution
  have h0 : ¬ ((s : ℤ) < 0) := by omega
  simp only [h0, if_false]
  by_cases h1 : (s : ℤ) ≤ 1
  · rw [if_pos h1]
    exact ⟨_, 1, rfl, rfl, by omega, by omega⟩
  · rw [if_neg h1]
    have hn : min total ((s : ℤ)).toNat = min total s := by simp
    rw [hn]
    have hpos : min total s ≠ 0 := by omega
    rw [if_neg hpos]
    refine ⟨_, min total s, rfl, ?_, by omega, by omega⟩
    have : min total s = (min total s - 1) + 1 := by omega
    conv_rhs => rw [this, List.range_succ]
    simp [Function.comp_def]

theorem forall2_map_thread {jobs : List Job} {r : List (List ℕ)} {P : ℕ → List ℕ → Prop}
    (h : List.Forall₂ (fun j l => P j.thread l) jobs r) : List.Forall₂ P (jobs.map Job.thread) r := by
  induction h with
  | nil => exact List.Forall₂.nil
  | cons a _ ih => exact List.Forall₂.cons a ih

theorem forall2_range {r : List (List ℕ)} {m : ℕ} {P : ℕ → List ℕ → Prop}
    (h : List.Forall₂ P (List.range m) r) : r.length = m ∧ ∀ t (ht : t < r.length), P t r[t] := by
  rw [List.forall₂_iff_get] at h
  obtain ⟨h1, h2⟩ := h
  simp at h1
  refine ⟨h1.symm, fun t ht => ?_⟩
  have := h2 t (by simpa [h1] using ht) ht
  simpa using this

theorem stridedThreads_perm (hw nTotal s : ℕ) (hs : 1 ≤ s) (ht : 0 < nTotal ∨ s = 1) :
    ∃ ts, stridedThreads hw nTotal (s : ℤ) = some ts ∧ ts.flatten.Perm (List.range nTotal) := by
  obtain ⟨jobs, m, hj, hjt, hms, hm⟩ := nThreadExecution_threads hw nTotal s hs ht
  unfold stridedThreads
  rw [hj]
  obtain ⟨r, hr, hf⟩ := mapM_some_of_forall (fun j : Job => stridedIndices nTotal (s : ℤ) j.thread) jobs
    (fun j _ => let ⟨l, hl, _⟩ := strided_some nTotal s hs j.thread; ⟨l, hl⟩)
  refine ⟨r, hr, ?_⟩
  have hf' := forall2_map_thread (P := fun t l => stridedIndices nTotal (s : ℤ) t = some l) hf
  rw [hjt] at hf'
  obtain ⟨hlen, hget⟩ := forall2_range hf'
  have key : ∀ t (ht : t < r.length), r[t].Nodup ∧
      ∀ k, k ∈ r[t] ↔ t ≤ k ∧ k < nTotal ∧ (k - t) % s = 0 := by
    intro t ht
    obtain ⟨l, hl, hnd, hmem⟩ := strided_some nTotal s hs t
    have := hget t ht
    rw [hl] at this
    injection this with this
    rw [← this]; exact ⟨hnd, hmem⟩
  have hmod : ∀ t k, t < m → t ≤ k → (k - t) % s = 0 → k % s = t := by
    intro t k h1 h2 h3
    have h5 : k = t + s * ((k - t) / s) := by
      have := Nat.div_add_mod (k - t) s; omega
    rw [h5, Nat.add_mul_mod_self_left, Nat.mod_eq_of_lt (by omega)]
  rw [List.perm_ext_iff_of_nodup _ List.nodup_range]
  · intro k
    rw [List.mem_flatten, List.mem_range]
    constructor
    · rintro ⟨l, hl, hk⟩
      obtain ⟨t, ht, rfl⟩ := List.getElem_of_mem hl
      exact ((key t ht).2 k).1 hk |>.2.1
    · intro hk
      have hlt : k % s < m := by
        rcases Nat.lt_or_ge nTotal s with h | h
        · have : k % s = k := Nat.mod_eq_of_lt (by omega)
          omega
        · have := Nat.mod_lt k (show 0 < s by omega); omega
      refine ⟨r[k % s]'(by omega), List.getElem_mem _, ?_⟩
      rw [(key _ _).2]
      refine ⟨Nat.mod_le _ _, hk, ?_⟩
      have := Nat.div_add_mod k s
      rw [show k - k % s = s * (k / s) by omega]; simp
  · rw [List.nodup_flatten]
    constructor
    · intro l hl
      obtain ⟨t, ht, rfl⟩ := List.getElem_of_mem hl
      exact (key t ht).1
    · rw [List.pairwise_iff_getElem]
      intro a b ha hb hab k hka hkb
      have h1 := ((key a ha).2 k).1 hka
      have h2 := ((key b hb).2 k).1 hkb
      have h3 := hmod a k (by omega) h1.1 h1.2.2
      have h4 := hmod b k (by omega) h2.1 h2.2.2
      omega

end Splinepy.Threads
