import Verif.Model.ThreadErrors
import Verif.Props.Queries
import Mathlib.Algebra.BigOperators.Group.List.Lemmas

/-!
C122: errors of threaded calls are Python exceptions for every number of threads.
C123: building a multipatch leaves the reference counts of its patches as they were.
-/
namespace Splinepy.ThreadErrors
open Splinepy.Threads Splinepy.Spec Splinepy.Queries.Spec

/-! ### C122 -/

theorem runItems_returned {e : Outcome} (he : e ≠ .returned) {fails : ℕ → Bool} {l : List ℕ} :
    runItems e fails l = .returned ↔ ∀ i ∈ l, fails i = false := by
  induction l with
  | nil => simp [runItems]
  | cons i l ih =>
    rw [runItems]
    by_cases h : fails i = true
    · rw [if_pos h]; simp [he, h]
    · rw [if_neg h, ih]; simp [h]

theorem runItems_error {e : Outcome} {fails : ℕ → Bool} {l : List ℕ} {i : ℕ} (hi : i ∈ l) (h : fails i = true) :
    runItems e fails l = e := by
  induction l with
  | nil => simp at hi
  | cons j l ih =>
    rw [runItems]
    by_cases hj : fails j = true
    · rw [if_pos hj]
    · rw [if_neg hj]
      rcases List.mem_cons.1 hi with rfl | hi
      · exact absurd h hj
      · exact ih hi

/-- C122, the part that holds: with zero or one thread, an error of any item is raised as an exception, and without an error the call
returns. Missing: two or more threads, see `threads_violates`. -/
theorem single_thread_raises_partial (hw total : ℕ) (nthread : ℤ) (fails : ℕ → Bool) (trace : List ℕ)
    (h : effective hw nthread ≤ 1) :
    ((∃ i < total, fails i = true) → execute hw total nthread fails trace = .raised) ∧
    ((∀ i < total, fails i = false) → execute hw total nthread fails trace = .returned) := by
  unfold execute
  change (_ → (if effective hw nthread ≤ 1 then _ else _) = _) ∧ (_ → (if effective hw nthread ≤ 1 then _ else _) = _)
  rw [if_pos h]
  constructor
  · rintro ⟨i, hi, hf⟩
    exact runItems_error (List.mem_range.2 hi) hf
  · intro hf
    exact (runItems_returned (by decide)).2 (fun i hi => hf i (List.mem_range.1 hi))

example : effective 4 1 ≤ 1 ∧ execute 4 3 1 (fun i => i == 2) [] = .raised := by decide

/-- Any number of threads the arrays are safe with (C09): without an error the call returns, whatever the schedule. -/
theorem no_error_returns (hw total : ℕ) (nthread : ℤ) (fails : ℕ → Bool) (hs : Safe hw total nthread)
    (hf : ∀ i < total, fails i = false) :
    ∃ ts, chunkThreads hw total nthread = some ts ∧ ∀ trace, Schedule ts trace → execute hw total nthread fails trace = .returned := by
  obtain ⟨ts, ht, hr⟩ := Queries.safe_chunks hs
  refine ⟨ts, ht, fun trace htr => ?_⟩
  by_cases h1 : effective hw nthread ≤ 1
  · exact (single_thread_raises_partial hw total nthread fails trace h1).2 hf
  · have h2 := (hs.resolve_left h1).1
    unfold execute
    change (if effective hw nthread ≤ 1 then _ else if min total (effective hw nthread).toNat = 0 then _ else _) = _
    rw [if_neg h1, if_neg (by omega)]
    refine (runItems_returned (by decide)).2 (fun i hi => hf i ?_)
    rw [(schedule_perm htr).mem_iff, hr, List.mem_range] at hi
    exact hi

example : Safe 4 6 3 ∧ ∀ i < 6, (fun i => i == 7) i = false := ⟨by right; decide, by decide⟩

/-- C122 is violated for two or more threads: whatever item throws, under every schedule the process ends instead of raising. -/
theorem threads_violates (hw total : ℕ) (nthread : ℤ) (fails : ℕ → Bool) (h : 2 ≤ effective hw nthread)
    (i : ℕ) (hi : i < total) (hf : fails i = true) :
    ∃ ts, chunkThreads hw total nthread = some ts ∧
      ∀ trace, Schedule ts trace → execute hw total nthread fails trace = .terminated := by
  obtain ⟨ts, ht, _, hr⟩ := chunks_eq_range hw total nthread _ rfl h (by omega)
  refine ⟨ts, ht, fun trace htr => ?_⟩
  unfold execute
  change (if effective hw nthread ≤ 1 then _ else if min total (effective hw nthread).toNat = 0 then _ else _) = _
  rw [if_neg (by omega), if_neg (by omega)]
  refine runItems_error (i := i) ?_ hf
  rw [(schedule_perm htr).mem_iff, hr, List.mem_range]
  omega

example : 2 ≤ effective 4 2 ∧ chunkThreads 4 3 2 = some [[0, 1], [2]] ∧ execute 4 3 2 (fun i => i == 2) [0, 2, 1] = .terminated := by
  decide

/-- C122 for the construction of a multipatch: a list with an element that is no (initialised) spline raises with one thread … -/
theorem multipatch_raises_partial (hw : ℕ) (patches : List Patch) (nthread : ℤ) (trace : List ℕ) (h : effective hw nthread ≤ 1)
    (p : Patch) (hp : p ∈ patches) (hbad : p ≠ .spline) : toCoreSplines hw patches nthread trace = .raised := by
  obtain ⟨i, hi, rfl⟩ := List.getElem_of_mem hp
  refine (single_thread_raises_partial hw _ nthread _ trace h).1 ⟨i, hi, ?_⟩
  rw [List.getD_eq_getElem?_getD, List.getElem?_eq_getElem hi]
  simpa using hbad

/-- … and ends the process with more. -/
theorem multipatch_violates (hw : ℕ) (patches : List Patch) (nthread : ℤ) (h : 2 ≤ effective hw nthread)
    (p : Patch) (hp : p ∈ patches) (hbad : p ≠ .spline) :
    ∃ ts, chunkThreads hw patches.length nthread = some ts ∧
      ∀ trace, Schedule ts trace → toCoreSplines hw patches nthread trace = .terminated := by
  obtain ⟨i, hi, rfl⟩ := List.getElem_of_mem hp
  refine threads_violates hw _ nthread _ h i hi ?_
  rw [List.getD_eq_getElem?_getD, List.getElem?_eq_getElem hi]
  simpa using hbad

example : Patch.other ∈ [Patch.spline, .other, .spline] ∧ Patch.other ≠ .spline := by decide

/-- C122 for `proximities` with a negative resolution before any tree was planted: an exception with one thread, the end of the
process with more; and an exception for every number of threads if a resolution is refused. -/
theorem proximities_without_tree (hw nQueries : ℕ) (res : List ℤ) (nthread : ℤ) (hq : 0 < nQueries)
    (hneg : Queries.plantTree res = some false) :
    (effective hw nthread ≤ 1 → ∀ trace, proximities hw nQueries false res nthread trace = .raised) ∧
    (2 ≤ effective hw nthread → ∃ ts, chunkThreads hw nQueries nthread = some ts ∧
      ∀ trace, Schedule ts trace → proximities hw nQueries false res nthread trace = .terminated) := by
  unfold proximities
  rw [hneg]
  exact ⟨fun h trace => (single_thread_raises_partial hw nQueries nthread _ trace h).1 ⟨0, hq, rfl⟩,
    fun h => threads_violates hw nQueries nthread _ h 0 hq rfl⟩

example : Queries.plantTree [-1, 5] = some false := by decide

/-- `proximities` returns for every safe number of threads if a tree is planted by the call, or by an earlier one. -/
theorem proximities_with_tree (hw nQueries : ℕ) (tree : Bool) (res : List ℤ) (nthread : ℤ) (plant : Bool) (hp : Queries.plantTree res = some plant)
    (h : plant = true ∨ tree = true) (hs : Safe hw nQueries nthread) :
    ∃ ts, chunkThreads hw nQueries nthread = some ts ∧ ∀ trace, Schedule ts trace → proximities hw nQueries tree res nthread trace = .returned := by
  unfold proximities
  rw [hp]
  refine no_error_returns hw nQueries nthread _ hs fun i _ => ?_
  rcases h with rfl | rfl <;> simp

example : Queries.plantTree [5, 5] = some true ∧ Queries.plantTree [-1, 5] = some false ∧ Safe 4 6 3 := ⟨by decide, by decide, by right; decide⟩

/-- C122 is violated by a call without queries or patches with two or more threads: it ends the process (a division by zero), although nothing is wrong with any item. -/
theorem empty_threads_violates (hw : ℕ) (nthread : ℤ) (fails : ℕ → Bool) (trace : List ℕ) (h : 2 ≤ effective hw nthread) :
    execute hw 0 nthread fails trace = .terminated := by
  unfold execute
  change (if effective hw nthread ≤ 1 then _ else if min 0 (effective hw nthread).toNat = 0 then _ else _) = _
  rw [if_neg (by omega), if_pos (by simp)]

/-- The errors of `proximities` which are exceptions for every number of threads: refused resolutions. -/
theorem proximities_refused (hw nQueries : ℕ) (tree : Bool) (res : List ℤ) (nthread : ℤ) (trace : List ℕ)
    (h : ¬ Queries.Spec.Accepted res) : proximities hw nQueries tree res nthread trace = .raised := by
  have := mt (Queries.plantTree_spec res).2.1 h
  rw [Option.not_isSome_iff_eq_none] at this
  unfold proximities
  rw [this]

example : ¬ Queries.Spec.Accepted [4, 1] := by
  rw [← (Queries.plantTree_spec _).2]; decide

/-- C122 for `add_fields`: fields that do not match the patches raise for every (safe) number of threads. -/
theorem field_mismatch_raises (hw : ℕ) (fields : List FieldState) (nthread : ℤ) (hs : Safe hw fields.length nthread)
    (hvalid : FieldState.invalid ∉ fields) :
    ∃ ts, chunkThreads hw fields.length nthread = some ts ∧ ∀ trace, Schedule ts trace →
      (FieldState.mismatch ∈ fields → addFields hw fields nthread trace = .raised) ∧
      (FieldState.mismatch ∉ fields → addFields hw fields nthread trace = .returned) := by
  obtain ⟨ts, ht, hr⟩ := no_error_returns hw fields.length nthread (fun i => fields.getD i .invalid == .invalid) hs (by
    intro i hi
    rw [List.getD_eq_getElem?_getD, List.getElem?_eq_getElem hi]
    simp only [Option.getD_some, beq_eq_false_iff_ne, ne_eq]
    intro he
    exact hvalid (he ▸ List.getElem_mem hi))
  refine ⟨ts, ht, fun trace htr => ?_⟩
  unfold addFields
  rw [hr trace htr]
  constructor
  · intro h
    rw [if_pos]
    exact List.any_eq_true.2 ⟨_, h, by decide⟩
  · intro h
    rw [if_neg]
    intro hc
    obtain ⟨x, hx, he⟩ := List.any_eq_true.1 hc
    rw [beq_iff_eq] at he
    exact h (he ▸ hx)

example : Safe 4 2 2 ∧ FieldState.invalid ∉ [FieldState.fine, .mismatch] := ⟨by right; decide, by decide⟩

/-- … but a field whose list can not be made a multipatch ends the process with two or more threads. -/
theorem field_invalid_violates (hw : ℕ) (fields : List FieldState) (nthread : ℤ) (h : 2 ≤ effective hw nthread)
    (hbad : FieldState.invalid ∈ fields) :
    ∃ ts, chunkThreads hw fields.length nthread = some ts ∧
      ∀ trace, Schedule ts trace → addFields hw fields nthread trace = .terminated := by
  obtain ⟨i, hi, he⟩ := List.getElem_of_mem hbad
  obtain ⟨ts, ht, hr⟩ := threads_violates hw fields.length nthread (fun i => fields.getD i .invalid == .invalid) h i hi (by
    rw [List.getD_eq_getElem?_getD, List.getElem?_eq_getElem hi, Option.getD_some, he]; rfl)
  exact ⟨ts, ht, fun trace htr => by unfold addFields; rw [hr trace htr]⟩

example : FieldState.invalid ∈ [FieldState.fine, .invalid] := by decide

/-! ### C123 -/

/-- Changes a thread still has to make to the count of object `o`. -/
def due (th : Thread) (o : ℕ) : ℤ := ((th.pending.filter (fun p => p.1 = o)).map Prod.snd).sum

/-- Objects a thread still works on. -/
def objectsOf (th : Thread) : List ℕ := th.pending.map Prod.fst

/-- No object is worked on by two threads. -/
def Spec.Disjoint (c : Config) : Prop :=
  ∀ (s t : ℕ) (a b : Thread), c.threads[s]? = some a → c.threads[t]? = some b → s ≠ t → ∀ o ∈ objectsOf a, o ∉ objectsOf b

/-- A loaded count is the current one. -/
def Fresh (c : Config) : Prop :=
  ∀ (t : ℕ) (a : Thread) (o : ℕ) (d : ℤ) (rest : List (ℕ × ℤ)) (v : ℤ), c.threads[t]? = some a → a.pending = (o, d) :: rest →
    a.loaded = some v → v = c.counts o

/-- Counts when all changes have been made. -/
def total (c : Config) (o : ℕ) : ℤ := c.counts o + (c.threads.map (due · o)).sum

theorem sum_map_set {l : List Thread} {t : ℕ} {a b : Thread} (h : l[t]? = some a) (f : Thread → ℤ) :
    ((l.set t b).map f).sum = (l.map f).sum - f a + f b := by
  induction l generalizing t with
  | nil => simp at h
  | cons x l ih =>
    cases t with
    | zero =>
      simp only [List.getElem?_cons_zero, Option.some_inj] at h
      subst h
      simp; ring
    | succ t =>
      simp only [List.getElem?_cons_succ] at h
      simp only [List.set_cons_succ, List.map_cons, List.sum_cons, ih h]; ring

theorem step_inv {c : Config} (hd : Spec.Disjoint c) (hf : Fresh c) (t : ℕ) :
    Spec.Disjoint (step c t) ∧ Fresh (step c t) ∧ ∀ o, total (step c t) o = total c o := by
  unfold step
  cases ht : c.threads[t]? with
  | none => exact ⟨hd, hf, fun _ => rfl⟩
  | some th =>
    have htl : t < c.threads.length := (List.getElem?_eq_some_iff.1 ht).1
    simp only
    split
    · exact ⟨hd, hf, fun _ => rfl⟩
    · next o d rest hp hl =>
      have hset : ∀ (s : ℕ) (a : Thread), (c.threads.set t { th with loaded := some (c.counts o) })[s]? = some a →
          ∃ a', c.threads[s]? = some a' ∧ a'.pending = a.pending ∧ (s ≠ t → a' = a) ∧
            (s = t → a.loaded = some (c.counts o)) := by
        intro s a ha
        by_cases hst : s = t
        · subst hst
          rw [List.getElem?_set_self htl, Option.some_inj] at ha
          subst ha
          exact ⟨th, ht, rfl, fun h => absurd rfl h, fun _ => rfl⟩
        · rw [List.getElem?_set_ne (Ne.symm hst)] at ha
          exact ⟨a, ha, rfl, fun _ => rfl, fun h => absurd h hst⟩
      refine ⟨?_, ?_, ?_⟩
      · intro s u a b ha hb hsu x hx
        obtain ⟨a', ha', hpa, _⟩ := hset s a ha
        obtain ⟨b', hb', hpb, _⟩ := hset u b hb
        have := hd s u a' b' ha' hb' hsu x (by unfold objectsOf at *; rw [hpa]; exact hx)
        unfold objectsOf at *
        rw [← hpb]; exact this
      · intro s a o' d' rest' v ha hpa hla
        obtain ⟨a', ha', hp', hne, heq⟩ := hset s a ha
        by_cases hst : s = t
        · subst hst
          rw [ht, Option.some_inj] at ha'
          subst ha'
          rw [hpa, hp] at hp'
          cases hp'
          rw [heq rfl, Option.some_inj] at hla
          exact hla.symm
        · rw [← hne hst] at hpa hla
          exact hf s a' o' d' rest' v ha' hpa hla
      · intro k
        unfold total
        rw [sum_map_set ht]
        have : due { th with loaded := some (c.counts o) } k = due th k := rfl
        rw [this]; ring
    · next o d rest v hp hl =>
      have hv : v = c.counts o := hf t th o d rest v ht hp hl
      have hset : ∀ (s : ℕ) (a : Thread), (c.threads.set t { pending := rest, loaded := none })[s]? = some a →
          ∃ a', c.threads[s]? = some a' ∧ (∀ x ∈ objectsOf a, x ∈ objectsOf a') ∧ (s ≠ t → a' = a) ∧
            (s = t → a.loaded = none) := by
        intro s a ha
        by_cases hst : s = t
        · subst hst
          rw [List.getElem?_set_self htl, Option.some_inj] at ha
          subst ha
          refine ⟨th, ht, fun x hx => ?_, fun h => absurd rfl h, fun _ => rfl⟩
          unfold objectsOf at *
          rw [hp]
          exact List.mem_cons_of_mem _ hx
        · rw [List.getElem?_set_ne (Ne.symm hst)] at ha
          exact ⟨a, ha, fun _ h => h, fun _ => rfl, fun h => absurd h hst⟩
      refine ⟨?_, ?_, ?_⟩
      · intro s u a b ha hb hsu x hx hxb
        obtain ⟨a', ha', hoa, _⟩ := hset s a ha
        obtain ⟨b', hb', hob, _⟩ := hset u b hb
        exact hd s u a' b' ha' hb' hsu x (hoa x hx) (hob x hxb)
      · intro s a o' d' rest' w ha hpa hla
        obtain ⟨a', ha', _, hne, heq⟩ := hset s a ha
        by_cases hst : s = t
        · rw [heq hst] at hla; cases hla
        · rw [← hne hst] at hpa hla
          have hw := hf s a' o' d' rest' w ha' hpa hla
          have ho : o' ≠ o := by
            intro he
            subst he
            refine hd s t a' th ha' ht hst o' ?_ ?_
            · unfold objectsOf; rw [hpa]; simp
            · unfold objectsOf; rw [hp]; simp
          simp [ho, hw]
      · intro k
        unfold total
        rw [sum_map_set ht]
        have h1 : due th k = (if o = k then d else 0) + due { pending := rest, loaded := none } k := by
          unfold due
          rw [hp]
          by_cases h : o = k
          · simp [h]
          · simp [h]
        rw [h1]
        by_cases h : o = k
        · subst h; simp [hv]; ring
        · have : k ≠ o := fun he => h he.symm
          simp [h, this]

theorem run_inv {c : Config} (hd : Spec.Disjoint c) (hf : Fresh c) (schedule : List ℕ) :
    Spec.Disjoint (run c schedule) ∧ ∀ o, total (run c schedule) o = total c o := by
  induction schedule generalizing c with
  | nil => exact ⟨hd, fun _ => rfl⟩
  | cons t ts ih =>
    obtain ⟨h1, h2, h3⟩ := step_inv hd hf t
    obtain ⟨h4, h5⟩ := ih h1 h2
    exact ⟨h4, fun o => (h5 o).trans (h3 o)⟩

/-- All threads have finished. -/
def Spec.Finished (c : Config) : Prop := ∀ th ∈ c.threads, th.pending = []

/-- Positions of different threads hold different objects. -/
def Spec.DistinctObjects (objects : List ℕ) (chunks : List (List ℕ)) : Prop :=
  ∀ (s t : ℕ) (a b : List ℕ), chunks[s]? = some a → chunks[t]? = some b → s ≠ t → ∀ i ∈ a, ∀ j ∈ b, ∀ o,
    objects[i]? = some o → objects[j]? ≠ some o

/-- C123, the part that holds: if no object is handled by two threads (in particular with one thread, or if no spline is listed twice), the
reference counts after building a multipatch are those before, for every schedule. Missing: `shared_object_violates`. -/
theorem counts_kept_partial (counts : ℕ → ℤ) (objects : List ℕ) (chunks : List (List ℕ))
    (h : Spec.DistinctObjects objects chunks) (schedule : List ℕ) (hfin : Spec.Finished (run (start counts objects chunks) schedule)) :
    (run (start counts objects chunks) schedule).counts = counts := by
  have hobj : ∀ (s : ℕ) (a : Thread), (start counts objects chunks).threads[s]? = some a →
      ∃ is, chunks[s]? = some is ∧ a.loaded = none ∧
        a.pending = is.flatMap (fun i => (objects[i]?).toList.flatMap (fun o => [(o, 1), (o, -1)])) := by
    intro s a ha
    simp only [start, List.getElem?_map] at ha
    obtain ⟨is, h1, rfl⟩ := Option.map_eq_some_iff.1 ha
    exact ⟨is, h1, rfl, rfl⟩
  have hmem : ∀ (is : List ℕ) (x : ℕ),
      x ∈ (is.flatMap (fun i => (objects[i]?).toList.flatMap (fun o => [(o, (1 : ℤ)), (o, -1)]))).map Prod.fst →
      ∃ i ∈ is, objects[i]? = some x := by
    intro is x hx
    obtain ⟨p, hp, rfl⟩ := List.mem_map.1 hx
    obtain ⟨i, hi, hp⟩ := List.mem_flatMap.1 hp
    obtain ⟨o, ho, hp⟩ := List.mem_flatMap.1 hp
    refine ⟨i, hi, ?_⟩
    rw [Option.mem_toList] at ho
    simp only [List.mem_cons, List.not_mem_nil, or_false] at hp
    rcases hp with rfl | rfl <;> exact ho
  have hd : Spec.Disjoint (start counts objects chunks) := by
    intro s t a b ha hb hst o hoa hob
    obtain ⟨is, h1, _, hpa⟩ := hobj s a ha
    obtain ⟨js, h2, _, hpb⟩ := hobj t b hb
    unfold objectsOf at hoa hob
    rw [hpa] at hoa
    rw [hpb] at hob
    obtain ⟨i, hi, hio⟩ := hmem is o hoa
    obtain ⟨j, hj, hjo⟩ := hmem js o hob
    exact h s t is js h1 h2 hst i hi j hj o hio hjo
  have hf : Fresh (start counts objects chunks) := by
    intro t a o d rest v ha _ hl
    obtain ⟨_, _, h1, _⟩ := hobj t a ha
    rw [h1] at hl; cases hl
  obtain ⟨-, hr⟩ := run_inv hd hf schedule
  funext o
  have h0 : ∀ l : List Thread, (∀ th ∈ l, due th o = 0) → (l.map (due · o)).sum = 0 := by
    intro l hl
    induction l with
    | nil => rfl
    | cons x l ih =>
      rw [List.map_cons, List.sum_cons, hl x (by simp), ih (fun y hy => hl y (List.mem_cons_of_mem _ hy))]; rfl
  have h1 := hr o
  unfold total at h1
  rw [h0 _ (fun th hth => by unfold due; rw [hfin th hth]; rfl), h0 (start counts objects chunks).threads ?_] at h1
  · simpa [start] using h1
  · intro th hth
    obtain ⟨s, hs, rfl⟩ := List.getElem_of_mem hth
    obtain ⟨is, hc, _, hp⟩ := hobj s _ (List.getElem?_eq_getElem hs)
    unfold due
    rw [hp]
    clear hp hc
    induction is with
    | nil => rfl
    | cons i is ih =>
      simp only [List.flatMap_cons, List.filter_append, List.map_append, List.sum_append, ih, add_zero]
      cases objects[i]? with
      | none => rfl
      | some x => by_cases hx : x = o <;> simp [hx]

/-- non-vacuity: three different splines on two threads -/
example : Spec.DistinctObjects [7, 8, 9] [[0, 1], [2]] ∧
    Spec.Finished (run (start (fun _ => 3) [7, 8, 9] [[0, 1], [2]]) [0, 1, 1, 0, 0, 1, 1, 0, 0, 0, 0, 0]) := by
  constructor
  · intro s t a b ha hb hst i hi j hj o hio hjo
    have key : ∀ s ∈ List.range 2, ∀ t ∈ List.range 2, s ≠ t → ∀ i ∈ ([[0, 1], [2]] : List (List ℕ)).getD s [],
        ∀ j ∈ ([[0, 1], [2]] : List (List ℕ)).getD t [], ([7, 8, 9] : List ℕ).getD i 0 ≠ ([7, 8, 9] : List ℕ).getD j 0 := by decide
    have hs := (List.getElem?_eq_some_iff.1 ha).1
    have ht := (List.getElem?_eq_some_iff.1 hb).1
    refine key s (List.mem_range.2 hs) t (List.mem_range.2 ht) hst i ?_ j ?_ ?_
    · rw [List.getD_eq_getElem?_getD, ha]; exact hi
    · rw [List.getD_eq_getElem?_getD, hb]; exact hj
    · rw [List.getD_eq_getElem?_getD, List.getD_eq_getElem?_getD, hio, hjo]
  · simp [Spec.Finished, run, step, start]

/-- A list without repeated splines, or a single thread, meets the hypothesis of `counts_kept_partial`. -/
theorem distinct_of_nodup (hw : ℕ) (nthread : ℤ) (objects : List ℕ) (hn : objects.Nodup) (hs : Safe hw objects.length nthread) :
    ∃ ts, chunkThreads hw objects.length nthread = some ts ∧ Spec.DistinctObjects objects ts := by
  obtain ⟨ts, ht, hr⟩ := Queries.safe_chunks hs
  refine ⟨ts, ht, ?_⟩
  have hnd : ts.flatten.Nodup := hr ▸ List.nodup_range
  have hpw := (List.nodup_flatten.1 hnd).2
  intro s t a b ha hb hst i hi j hj o hio hjo
  have hij : i = j := by
    obtain ⟨h1, e1⟩ := List.getElem?_eq_some_iff.1 hio
    obtain ⟨h2, e2⟩ := List.getElem?_eq_some_iff.1 hjo
    exact (List.Nodup.getElem_inj_iff hn).1 (e1.trans e2.symm)
  subst hij
  obtain ⟨hsl, rfl⟩ := List.getElem?_eq_some_iff.1 ha
  obtain ⟨htl, rfl⟩ := List.getElem?_eq_some_iff.1 hb
  rcases Nat.lt_or_gt_of_ne hst with h | h
  · exact (List.pairwise_iff_getElem.1 hpw s t hsl htl h) hi hj
  · exact (List.pairwise_iff_getElem.1 hpw t s htl hsl h) hj hi

example : [7, 8, 9].Nodup ∧ Safe 4 3 2 := ⟨by decide, by right; decide⟩

/-- C123 is violated: a spline that is listed twice, converted on two threads. Three references exist (the list holds two, the user one);
after the call the count says two, so the spline is destroyed when the list is, although the user still refers to it. -/
theorem shared_object_violates :
    ∃ schedule, chunkThreads 8 2 2 = some [[0], [1]] ∧
      Spec.Finished (run (start (fun _ => 3) [5, 5] [[0], [1]]) schedule) ∧
      (run (start (fun _ => 3) [5, 5] [[0], [1]]) schedule).counts 5 = 2 := by
  refine ⟨[0, 1, 0, 1, 0, 0, 1, 1], by decide, ?_, ?_⟩
  · simp [Spec.Finished, run, step, start]
  · simp [run, step, start]

end Splinepy.ThreadErrors
