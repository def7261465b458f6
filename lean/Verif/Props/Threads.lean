import Verif.Lemma.Threads

/-!
C09 (threaded queries) and C10 (strided multipatch queries).

Specification vocabulary:
* `Spec.Schedule threads trace` : `trace` is an interleaving of the threads' actions (any schedule).
* "item `i` is handled exactly once" : `List.count i allItems = 1`.
* `effective hw nthread` : the number of threads asked for, a negative number means what the hardware offers.
-/
namespace Splinepy.Threads
open Splinepy.Spec

/-- Number of threads the caller asks for (negative: what the hardware offers). -/
def effective (hw : ℕ) (nthread : ℤ) : ℤ := if nthread < 0 then hw else nthread

/-- `⌈total / n⌉`. -/
def ceilDiv (total n : ℕ) : ℕ := (total + n - 1) / n

theorem ceilDiv_spec (total n : ℕ) (hn : 0 < n) : total ≤ n * ceilDiv total n := by
  unfold ceilDiv
  have h := Nat.div_add_mod (total + n - 1) n
  have h2 := Nat.mod_lt (total + n - 1) hn
  omega

/-- Complete description of the chunk distribution for two or more threads: the visited indices, listed thread after
thread, are `0, 1, …` up to (excluding) `max total ((n-1)⌈total/n⌉)`. -/
theorem chunks_eq_range (hw total : ℕ) (nthread : ℤ) (n : ℕ)
    (hn : n = min total (effective hw nthread).toNat)
    (h2 : 2 ≤ effective hw nthread) (ht : 0 < total) :
    ∃ ts, chunkThreads hw total nthread = some ts ∧ ts.length = n ∧
      ts.flatten = List.range (max total ((n - 1) * ceilDiv total n)) := by
  subst hn
  set n := min total (effective hw nthread).toNat with hn
  have he : nThreadExecution hw total nthread =
      some ((List.range (n - 1)).map
        (fun i => (⟨i * ceilDiv total n, (i + 1) * ceilDiv total n, i⟩ : Job))
        ++ [⟨(n - 1) * ceilDiv total n, total, n - 1⟩]) := by
    unfold nThreadExecution
    change (if effective hw nthread ≤ 1 then _ else _) = _
    rw [if_neg (by omega)]
    change (if min total (effective hw nthread).toNat = 0 then _ else _) = _
    rw [if_neg (by omega)]
    rfl
  unfold chunkThreads
  rw [he]
  refine ⟨_, rfl, by simp; omega, ?_⟩
  beta_reduce
  rw [List.map_append, List.flatten_append, List.map_map]
  have h1 : (List.range (n - 1)).map (chunkIndices ∘
      (fun i => (⟨i * ceilDiv total n, (i + 1) * ceilDiv total n, i⟩ : Job))) =
      (List.range (n - 1)).map (fun i => List.range' (i * ceilDiv total n) (ceilDiv total n)) := by
    apply List.map_congr_left
    intro i _
    simp [chunkIndices, Nat.add_mul]
  rw [h1, range_chunks]
  simp only [List.map_cons, List.map_nil, List.flatten_cons, List.flatten_nil, List.append_nil,
    chunkIndices]
  rw [List.range_eq_range', List.range_eq_range']
  have h3 := @List.range'_append 0 ((n - 1) * ceilDiv total n) (total - (n - 1) * ceilDiv total n) 1
  simp only [Nat.zero_add, Nat.one_mul] at h3
  rw [h3]; congr 1; omega

example : (effective 8 4 : ℤ) = 4 ∧ 2 ≤ effective 8 4 ∧
    chunkThreads 8 10 4 = some [[0,1,2],[3,4,5],[6,7,8],[9]] := by decide

/-- With zero or one thread the items are visited in order, once. Also covers an empty set of queries. -/
theorem single_thread_eq_range (hw total : ℕ) (nthread : ℤ) (h : effective hw nthread ≤ 1) :
    chunkThreads hw total nthread = some [List.range total] := by
  unfold chunkThreads nThreadExecution
  change Option.map _ (if effective hw nthread ≤ 1 then _ else _) = _
  rw [if_pos h]
  simp [chunkIndices, List.range_eq_range']

example : effective 0 (-1) ≤ 1 ∧ chunkThreads 0 3 (-1) = some [[0, 1, 2]] := by decide

/-- C09, the part that holds: for a non-empty set of queries and *every* number of threads, each query is handled
exactly once. What is missing from C09: see `out_of_range_chunk_violates` and `empty_queries_violates`. -/
theorem each_query_once_partial (hw total : ℕ) (nthread : ℤ)
    (h : 0 < total ∨ effective hw nthread ≤ 1) :
    ∃ ts, chunkThreads hw total nthread = some ts ∧ ∀ i < total, ts.flatten.count i = 1 := by
  by_cases h1 : effective hw nthread ≤ 1
  · refine ⟨_, single_thread_eq_range hw total nthread h1, fun i hi => ?_⟩
    simp only [List.flatten_cons, List.flatten_nil, List.append_nil]
    exact List.count_eq_one_of_mem List.nodup_range (List.mem_range.2 hi)
  · obtain ⟨ts, h2, _, h3⟩ := chunks_eq_range hw total nthread _ rfl (by omega) (by omega)
    refine ⟨ts, h2, fun i hi => ?_⟩
    rw [h3]
    exact List.count_eq_one_of_mem List.nodup_range (List.mem_range.2 (by omega))

example : ∃ ts, chunkThreads 8 7 3 = some ts ∧ ts.flatten.count 6 = 1 := ⟨_, rfl, by decide⟩

/-- C09, exact condition under which no index outside of the arrays is touched, for two or more threads. -/
theorem in_range_iff (hw total : ℕ) (nthread : ℤ) (n : ℕ)
    (hn : n = min total (effective hw nthread).toNat)
    (h2 : 2 ≤ effective hw nthread) (ht : 0 < total) :
    ∃ ts, chunkThreads hw total nthread = some ts ∧
      ((∀ i ∈ ts.flatten, i < total) ↔ (n - 1) * ceilDiv total n ≤ total) := by
  obtain ⟨ts, h3, _, h4⟩ := chunks_eq_range hw total nthread n hn h2 ht
  refine ⟨ts, h3, ?_⟩
  rw [h4]
  constructor
  · intro h
    by_contra hc
    have := h total (List.mem_range.2 (by omega))
    omega
  · intro h i hi
    have := List.mem_range.1 hi
    omega

/-- In particular it is safe whenever the number of threads divides the number of queries. -/
theorem in_range_of_dvd (hw total : ℕ) (nthread : ℤ) (h2 : 2 ≤ effective hw nthread) (ht : 0 < total)
    (hd : (effective hw nthread).toNat ∣ total) :
    ∃ ts, chunkThreads hw total nthread = some ts ∧ ts.flatten = List.range total := by
  obtain ⟨ts, h3, _, h4⟩ := chunks_eq_range hw total nthread _ rfl h2 ht
  refine ⟨ts, h3, ?_⟩
  rw [h4]
  congr 1
  obtain ⟨k, hk⟩ := hd
  set e := (effective hw nthread).toNat with he
  have he2 : 2 ≤ e := by omega
  have hk0 : 0 < k := by
    rcases Nat.eq_zero_or_pos k with h | h
    · subst h; omega
    · exact h
  have hm : min total e = e := by
    apply Nat.min_eq_right
    rw [hk]; exact Nat.le_mul_of_pos_right _ hk0
  rw [hm]
  have hc : ceilDiv total e = k := by
    unfold ceilDiv
    rw [hk, Nat.add_sub_assoc (by omega), Nat.mul_add_div (by omega), Nat.div_eq_of_lt (by omega)]
    omega
  rw [hc, hk]
  apply Nat.max_eq_left
  exact Nat.mul_le_mul_right _ (by omega)

example : ∃ ts, chunkThreads 8 12 4 = some ts ∧ ts.flatten = List.range 12 :=
  in_range_of_dvd 8 12 4 (by decide) (by decide) (by decide)

/-- C09 is violated: five queries on four threads make the third thread handle query number 5, which does not exist
(reads and writes past the end of the arrays). -/
theorem out_of_range_chunk_violates :
    ∃ (hw total : ℕ) (nthread : ℤ) (ts : List (List ℕ)) (i : ℕ),
      chunkThreads hw total nthread = some ts ∧ i ∈ ts.flatten ∧ ¬ i < total :=
  ⟨8, 5, 4, _, 5, rfl, by decide, by decide⟩

/-- C09 is violated for an empty set of queries: every request for two or more threads divides by zero. -/
theorem empty_queries_violates (hw : ℕ) (nthread : ℤ) (h : 2 ≤ effective hw nthread) :
    chunkThreads hw 0 nthread = none := by
  unfold chunkThreads nThreadExecution
  change Option.map _ (if effective hw nthread ≤ 1 then _ else _) = _
  rw [if_neg (by omega)]
  simp

example : 2 ≤ effective 8 4 := by decide

/-- C09 at the level of results: whatever the schedule of the threads, after `evaluate` the result slot of every query
holds the value for that query, for every number of threads (non-empty queries, or at most one thread). -/
theorem evaluate_schedule_independent {α : Type*} (eval : ℕ → α) (hw nQueries : ℕ) (nthreads : ℤ)
    (h : 0 < nQueries ∨ effective hw nthreads ≤ 1) :
    ∃ threads, splineEvaluate eval hw nQueries nthreads = some threads ∧
      ∀ trace, Schedule threads trace → ∀ mem : ℕ → Option α, ∀ i < nQueries,
        runWrites mem trace i = some (eval i) := by
  have key : ∃ ts N, chunkThreads hw nQueries nthreads = some ts ∧ ts.flatten = List.range N ∧
      nQueries ≤ N := by
    by_cases h1 : effective hw nthreads ≤ 1
    · exact ⟨_, nQueries, single_thread_eq_range hw nQueries nthreads h1, by simp, le_refl _⟩
    · obtain ⟨ts, h2, _, h3⟩ := chunks_eq_range hw nQueries nthreads _ rfl (by omega) (by omega)
      exact ⟨ts, _, h2, h3, Nat.le_max_left _ _⟩
  obtain ⟨ts, N, h1, h2, h3⟩ := key
  unfold splineEvaluate
  rw [h1]
  refine ⟨_, rfl, fun trace hs mem i hi => ?_⟩
  have hp := schedule_perm hs
  rw [← List.map_flatten, h2] at hp
  apply runWrites_of_nodup
  · have := (hp.map Prod.fst).nodup_iff.2 (by
      rw [List.map_map]
      have : (Prod.fst ∘ fun i => (i, eval i)) = id := rfl
      rw [this, List.map_id]; exact List.nodup_range)
    exact this
  · rw [hp.mem_iff]
    exact List.mem_map.2 ⟨i, List.mem_range.2 (by omega), rfl⟩

/-- non-vacuity: a schedule of two threads on three queries -/
example : ∃ threads trace, splineEvaluate (fun i => i * i) 8 3 2 = some threads ∧ Schedule threads trace ∧
    runWrites (fun _ => none) trace 2 = some 4 := by
  refine ⟨[[(0, 0), (1, 1)], [(2, 4)]], [(0, 0), (2, 4), (1, 1)], by decide, ?_, by decide⟩
  refine Schedule.step [] [[(2, 4)]] (0, 0) [(1, 1)] _ ?_
  refine Schedule.step [[(1, 1)]] [] (2, 4) [] _ ?_
  refine Schedule.step [] [[]] (1, 1) [] _ ?_
  exact Schedule.done _ (by simp)

/-! ### C10 -/

/-- C10: for every number of threads `≥ 1` the strided distribution visits every item exactly once (and nothing else). -/
theorem strided_each_item_once_partial (hw nTotal nthreads : ℕ) (h1 : 1 ≤ nthreads) (h2 : 0 < nTotal ∨ nthreads = 1) :
    ∃ ts, stridedThreads hw nTotal nthreads = some ts ∧
      ∀ i, ts.flatten.count i = if i < nTotal then 1 else 0 := by
  obtain ⟨ts, h3, h4⟩ := stridedThreads_perm hw nTotal nthreads h1 h2
  refine ⟨ts, h3, fun i => ?_⟩
  rw [h4.count_eq]
  split
  · exact List.count_eq_one_of_mem List.nodup_range (List.mem_range.2 (by assumption))
  · exact List.count_eq_zero_of_not_mem (by rw [List.mem_range]; assumption)

example : stridedThreads 8 7 3 = some [[0, 3, 6], [1, 4], [2, 5]] := by
  simp [stridedThreads, nThreadExecution, stridedIndices, List.range_succ]

/-- C10 at the level of results: after `Multipatch.evaluate`, under every schedule, the slot of patch `s` and query `q` holds
the value of patch `s` at query `q`, and no slot beyond the result array is written. -/
theorem multipatch_evaluate_correct_partial {α : Type*} (eval : ℕ → ℕ → α) (hw nSplines nQueries nthreads : ℕ)
    (h1 : 1 ≤ nthreads) (h2 : 0 < nSplines * nQueries ∨ nthreads = 1) :
    ∃ threads, multipatchEvaluate eval hw nSplines nQueries nthreads = some threads ∧
      ∀ trace, Schedule threads trace → ∀ mem : ℕ → Option α,
        (∀ s < nSplines, ∀ q < nQueries, runWrites mem trace (s * nQueries + q) = some (eval s q)) ∧
        (∀ k, nSplines * nQueries ≤ k → runWrites mem trace k = mem k) := by
  obtain ⟨ts, h3, h4⟩ := stridedThreads_perm hw (nSplines * nQueries) nthreads h1 h2
  unfold multipatchEvaluate
  rw [h3]
  refine ⟨_, rfl, fun trace hs mem => ?_⟩
  have hp := schedule_perm hs
  rw [← List.map_flatten] at hp
  have hp2 := hp.trans (h4.map (evaluateStep eval nQueries))
  have hslots : (trace.map Prod.fst).Perm (List.range (nSplines * nQueries)) := by
    refine (hp2.map Prod.fst).trans ?_
    rw [List.map_map]
    have : (Prod.fst ∘ evaluateStep eval nQueries) = id := by
      funext i
      simp only [Function.comp, evaluateStep, id]
      exact Nat.div_add_mod' i nQueries
    rw [this, List.map_id]
  constructor
  · intro s hs q hq
    apply runWrites_of_nodup
    · exact hslots.nodup_iff.2 List.nodup_range
    · rw [hp2.mem_iff]
      refine List.mem_map.2 ⟨s * nQueries + q, List.mem_range.2 ?_, ?_⟩
      · calc s * nQueries + q < s * nQueries + nQueries := by omega
          _ = (s + 1) * nQueries := by ring
          _ ≤ nSplines * nQueries := Nat.mul_le_mul_right _ hs
      · unfold evaluateStep
        have hd : (s * nQueries + q) / nQueries = s := by
          rw [Nat.mul_comm, Nat.mul_add_div (by omega), Nat.div_eq_of_lt hq]; simp
        have hm : (s * nQueries + q) % nQueries = q := by
          rw [Nat.mul_comm, Nat.mul_add_mod, Nat.mod_eq_of_lt hq]
        simp only [hd, hm]
  · intro k hk
    apply runWrites_of_not_mem
    rw [hslots.mem_iff, List.mem_range]; omega

example : 1 ≤ 3 ∧ (0 < 2 * 4 ∨ 3 = 1) := by decide

/-- The first job always belongs to thread 0. -/
theorem first_thread_zero {hw total : ℕ} {nthread : ℤ} {jobs : List Job}
    (h : nThreadExecution hw total nthread = some jobs) :
    ∃ j rest, jobs = j :: rest ∧ j.thread = 0 := by
  unfold nThreadExecution at h
  simp only at h
  generalize (if nthread < 0 then (hw : ℤ) else nthread) = e at h
  split at h
  · simp only [Option.some.injEq] at h
    exact ⟨_, _, h.symm, rfl⟩
  · split at h
    · exact absurd h (by simp)
    · simp only [Option.some.injEq] at h
      generalize hm : min total e.toNat = m at h
      match m with
      | 0 => exact ⟨_, _, h.symm, rfl⟩
      | 1 => exact ⟨_, _, h.symm, rfl⟩
      | m + 2 =>
        rw [show m + 2 - 1 = m + 1 from rfl, List.range_succ_eq_map] at h
        exact ⟨_, _, h.symm, rfl⟩

/-- C10 is violated for `nthreads = 0` and for negative numbers (documented as "use all hardware threads"): the loop of the first
thread does not terminate. -/
theorem strided_nonpositive_violates (hw nTotal : ℕ) (nthreads : ℤ) (h : nthreads ≤ 0) (ht : 0 < nTotal) :
    stridedThreads hw nTotal nthreads = none := by
  have hs : ∀ j : Job, j.thread = 0 → stridedIndices nTotal nthreads j.thread = none := by
    intro j hj
    rw [stridedIndices, dif_neg (by omega), dif_pos h]
  unfold stridedThreads
  cases hj : nThreadExecution hw nTotal nthreads with
  | none => rfl
  | some jobs =>
    obtain ⟨j, rest, rfl, h0⟩ := first_thread_zero hj
    simp [List.mapM_cons, hs j h0]

example : (-1 : ℤ) ≤ 0 ∧ 0 < 5 := by decide

/-! ### extract_all_boundary_splines -/

/-- Specification: all (patch, face) pairs with a negative entry. -/
def allBoundaryFaces (interfaces : List (List ℤ)) : List (ℕ × ℕ) :=
  (List.range interfaces.length).flatMap (fun i =>
    ((List.range (interfaces.getD i []).length).filter
      (fun f => (interfaces.getD i []).getD f 0 < 0)).map (fun f => (i, f)))

/-- `extract_all_boundary_splines` loops over as many patches as there are threads: with the default single thread, only the
boundaries of the first patch come back. -/
theorem extractAllBoundarySplines_violates (hw : ℕ) :
    extractAllBoundarySplines hw [[-1, 2], [1, -1]] 1 = some [(0, 0)] ∧
    allBoundaryFaces [[-1, 2], [1, -1]] = [(0, 0), (1, 1)] := by
  constructor
  · rfl
  · decide

theorem mapM_eq_some_map {α β : Type*} (f : α → Option β) (g : α → β) (l : List α)
    (h : ∀ a ∈ l, f a = some (g a)) : l.mapM f = some (l.map g) := by
  induction l with
  | nil => rfl
  | cons a l ih =>
    simp [List.mapM_cons, h a (by simp), ih (fun x hx => h x (by simp [hx]))]

/-- The part that holds: with as many threads as patches the result is complete and in order. -/
theorem extractAllBoundarySplines_partial (hw : ℕ) (interfaces : List (List ℤ)) (h : 1 ≤ interfaces.length) :
    extractAllBoundarySplines hw interfaces interfaces.length = some (allBoundaryFaces interfaces) := by
  have hn : ∃ ts, chunkThreads hw interfaces.length (interfaces.length : ℤ) = some ts ∧
      ts.flatten = List.range interfaces.length := by
    by_cases h1 : effective hw interfaces.length ≤ 1
    · exact ⟨_, single_thread_eq_range _ _ _ h1, by simp⟩
    · refine in_range_of_dvd hw _ _ (by omega) h ?_
      have : effective hw (interfaces.length : ℤ) = interfaces.length := by
        unfold effective; rw [if_neg (by omega)]
      rw [this]; simp
  obtain ⟨ts, h1, h2⟩ := hn
  unfold chunkThreads at h1
  unfold extractAllBoundarySplines
  rw [if_neg (by omega)]
  have h3 : ((interfaces.length : ℤ)).toNat = interfaces.length := by simp
  rw [h3]
  cases hj : nThreadExecution hw interfaces.length (interfaces.length : ℤ) with
  | none => rw [hj] at h1; simp at h1
  | some jobs =>
    rw [hj] at h1
    simp only [Option.map_some, Option.some.injEq] at h1
    subst h1
    simp only
    have hinner : ∀ j ∈ jobs, ((chunkIndices j).mapM (fun i =>
          (interfaces[i]?).map (fun row =>
            ((List.range row.length).filter (fun f => row.getD f 0 < 0)).map (fun f => (i, f))))) =
        some ((chunkIndices j).map (fun i =>
          ((List.range (interfaces.getD i []).length).filter
            (fun f => (interfaces.getD i []).getD f 0 < 0)).map (fun f => (i, f)))) := by
      intro j hjm
      apply mapM_eq_some_map
      intro i hi
      have him : i ∈ (jobs.map chunkIndices).flatten :=
        List.mem_flatten.2 ⟨_, List.mem_map.2 ⟨j, hjm, rfl⟩, hi⟩
      rw [h2, List.mem_range] at him
      rw [List.getElem?_eq_getElem him]
      simp only [Option.map_some, List.getD_eq_getElem?_getD, List.getElem?_eq_getElem him, Option.getD_some]
    rw [mapM_eq_some_map _ (fun j => ((chunkIndices j).map (fun i =>
          ((List.range (interfaces.getD i []).length).filter
            (fun f => (interfaces.getD i []).getD f 0 < 0)).map (fun f => (i, f)))).flatten) jobs]
    · simp only [Option.map_some, Option.some.injEq]
      unfold allBoundaryFaces
      rw [← h2, List.flatMap_def, List.map_flatten, List.map_map, List.flatten_flatten, List.map_map]
      rfl
    · intro j hj
      rw [hinner j hj]; rfl

example : extractAllBoundarySplines 8 [[-1, 2], [1, -1]] 2 = some [(0, 0), (1, 1)] := by decide

end Splinepy.Threads
