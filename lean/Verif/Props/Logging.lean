import Verif.Model.Logging
import Mathlib.Data.List.Basic
import Mathlib.Data.List.Induction

/-!
C130: every message is printed once, and written once to the log file.
-/
namespace Splinepy.Logging

/-! ### Specification -/

/-- How often a message is printed. -/
def Spec.printed (g : Logger) (level : Nat) : Nat := (reached g level).countP (fun h => match h with | .stream _ => true | _ => false)

/-- How often a message is written to a file. -/
def Spec.written (g : Logger) (level path : Nat) : Nat := (reached g level).count (.file path)

/-- How often a message reaches a handler of the user. -/
def Spec.delivered (g : Logger) (level id l : Nat) : Nat := (reached g level).count (.other id l)

/-- The handlers the user added in a history. -/
def Spec.added (ops : List Op) : List (Nat × Nat) := ops.filterMap (fun op => match op with | .configure _ _ => none | .addOther id l => some (id, l))

/-- Level and log file of the latest `configure`, found from the end of the history. -/
def Spec.latest (ops : List Op) : Bool × Option Nat :=
  ops.foldl (fun c op => match op with | .configure d f => (d, f) | .addOther _ _ => c) (false, none)

/-! ### Proofs -/

/-- The logger after any history. -/
theorem run_shape (ops : List Op) : ∃ before after, Spec.added ops = before ++ after ∧
    run ops = ⟨if (Spec.latest ops).1 then 10 else 20, before.map (fun p => .other p.1 p.2) ++ [.stream (if (Spec.latest ops).1 then 10 else 20)] ++ (Spec.latest ops).2.toList.map .file ++
      after.map (fun p => .other p.1 p.2)⟩ := by
  induction ops using List.reverseRecOn with
  | nil => exact ⟨[], [], rfl, rfl⟩
  | append_singleton ops op ih =>
    obtain ⟨before, after, h1, h2⟩ := ih
    have hrun : run (ops ++ [op]) = step (run ops) op := by simp [run]
    cases op with
    | configure d f =>
      have hother : ∀ l : List (Nat × Nat), (l.map (fun p => Handler.other p.1 p.2)).filter (fun h => !h.isStream) = l.map (fun p => Handler.other p.1 p.2) := by
        intro l
        rw [List.filter_eq_self]
        intro h hm
        obtain ⟨p, _, rfl⟩ := List.mem_map.1 hm
        rfl
      have hfile : ((Spec.latest ops).2.toList.map Handler.file).filter (fun h => !h.isStream) = [] := by
        rw [List.filter_eq_nil_iff]
        intro h hm
        obtain ⟨p, _, rfl⟩ := List.mem_map.1 hm
        simp [Handler.isStream]
      have hadd : Spec.added (ops ++ [.configure d f]) = Spec.added ops := by simp [Spec.added]
      refine ⟨before ++ after, [], by simp [hadd, h1], ?_⟩
      rw [hrun, h2]
      simp only [step, configure, Spec.latest, List.foldl_append, List.foldl_cons, List.foldl_nil, List.filter_append, hother, hfile]
      simp [Handler.isStream]
    | addOther id l =>
      have hlat : Spec.latest (ops ++ [.addOther id l]) = Spec.latest ops := by simp [Spec.latest]
      have hadd : Spec.added (ops ++ [.addOther id l]) = Spec.added ops ++ [(id, l)] := by simp [Spec.added]
      refine ⟨before, after ++ [(id, l)], by simp [hadd, h1], ?_⟩
      rw [hrun, h2, hlat]
      simp [step]

theorem countP_other (p : Handler → Bool) (q : Handler → Bool) (hq : ∀ id l, q (.other id l) = false) (l : List (Nat × Nat)) : ((l.map (fun p => Handler.other p.1 p.2)).filter p).countP q = 0 := by
  rw [List.countP_eq_zero]
  intro h hm
  obtain ⟨x, _, rfl⟩ := List.mem_map.1 (List.mem_of_mem_filter hm)
  simp [hq]

/-- C130: after any history, a message is printed exactly once if its level is at least the one of the latest `configure`, and not at all otherwise. -/
theorem printed_once (ops : List Op) (level : Nat) : Spec.printed (run ops) level = if (if (Spec.latest ops).1 then 10 else 20) ≤ level then 1 else 0 := by
  obtain ⟨before, after, _, h⟩ := run_shape ops
  unfold Spec.printed reached
  rw [h]
  simp only
  generalize (if (Spec.latest ops).1 then 10 else 20) = t
  split
  · rename_i hl
    rw [List.filter_append, List.filter_append, List.filter_append, List.countP_append, List.countP_append, List.countP_append, countP_other _ _ (fun _ _ => rfl), countP_other _ _ (fun _ _ => rfl)]
    have hf : (((Spec.latest ops).2.toList.map Handler.file).filter (fun h => decide (h.level ≤ level))).countP (fun h => match h with | .stream _ => true | _ => false) = 0 := by
      rw [List.countP_eq_zero]
      intro h hm
      obtain ⟨p, _, rfl⟩ := List.mem_map.1 (List.mem_of_mem_filter hm)
      simp
    rw [hf]
    simp [Handler.level, hl]
  · rfl

/-- C130: after any history, a message of sufficient level is written exactly once to the log file of the latest `configure`. -/
theorem written_once_partial (ops : List Op) (level path : Nat) (hp : (Spec.latest ops).2 = some path) :
    Spec.written (run ops) level path = if (if (Spec.latest ops).1 then 10 else 20) ≤ level then 1 else 0 := by
  obtain ⟨before, after, _, h⟩ := run_shape ops
  unfold Spec.written reached
  rw [h]
  simp only
  generalize (if (Spec.latest ops).1 then 10 else 20) = t
  split
  · have ho : ∀ l : List (Nat × Nat), ((l.map (fun p => Handler.other p.1 p.2)).filter (fun h => decide (h.level ≤ level))).count (.file path) = 0 := by
      intro l
      rw [List.count_eq_zero]
      intro hm
      obtain ⟨x, _, hx⟩ := List.mem_map.1 (List.mem_of_mem_filter hm)
      cases hx
    rw [List.filter_append, List.filter_append, List.filter_append, List.count_append, List.count_append, List.count_append, ho, ho, hp]
    have hs : ∀ l : Nat, ([Handler.stream l].filter (fun h => decide (h.level ≤ level))).count (.file path) = 0 := by
      intro l
      rw [List.count_eq_zero]
      intro hm
      have := List.mem_of_mem_filter hm
      simp at this
    rw [hs]
    simp [Handler.level]
  · rfl

/-- C130: after any history, a message of sufficient level reaches every handler of the user, as often as it was added. -/
theorem delivered_all (ops : List Op) (level id l : Nat) (hl : l ≤ level) :
    Spec.delivered (run ops) level id l = if (if (Spec.latest ops).1 then 10 else 20) ≤ level then (Spec.added ops).count (id, l) else 0 := by
  obtain ⟨before, after, ha, h⟩ := run_shape ops
  unfold Spec.delivered reached
  rw [h]
  simp only
  generalize (if (Spec.latest ops).1 then 10 else 20) = t
  split
  · have ho : ∀ xs : List (Nat × Nat), ((xs.map (fun p => Handler.other p.1 p.2)).filter (fun h => decide (h.level ≤ level))).count (.other id l) = xs.count (id, l) := by
      intro xs
      induction xs with
      | nil => rfl
      | cons x xs ih =>
        obtain ⟨a, b⟩ := x
        by_cases hx : (a, b) = (id, l)
        · obtain ⟨rfl, rfl⟩ := Prod.mk.inj hx
          rw [List.count_cons_self, ← ih, List.map_cons, List.filter_cons, if_pos (show decide ((Handler.other a b).level ≤ level) = true from decide_eq_true hl), List.count_cons_self]
        · have hne : (Handler.other a b) ≠ .other id l := by
            intro h
            cases h
            exact hx rfl
          rw [List.count_cons_of_ne hx, ← ih, List.map_cons, List.filter_cons]
          split
          · rw [List.count_cons_of_ne hne]
          · rfl
    rw [List.filter_append, List.filter_append, List.filter_append, List.count_append, List.count_append, List.count_append, ho, ho]
    have hs : ∀ (m : Nat), ([Handler.stream m].filter (fun h => decide (h.level ≤ level))).count (.other id l) = 0 := by
      intro m
      rw [List.count_eq_zero]
      intro hm
      have := List.mem_of_mem_filter hm
      simp at this
    have hf : (((Spec.latest ops).2.toList.map Handler.file).filter (fun h => decide (h.level ≤ level))).count (.other id l) = 0 := by
      rw [List.count_eq_zero]
      intro hm
      obtain ⟨x, _, hx⟩ := List.mem_map.1 (List.mem_of_mem_filter hm)
      cases hx
    rw [hs, hf, ha, List.count_append]
    omega
  · rfl

/-- A concrete history. -/
example : Spec.latest [.configure true (some 3), .addOther 5 30, .configure true (some 4)] = (true, some 4) ∧
    reached (run [.configure true (some 3), .addOther 5 30, .configure true (some 4)]) 10 = [.stream 10, .file 4] ∧
    reached (run [.configure true (some 3), .addOther 5 30, .configure true (some 4)]) 40 = [.other 5 30, .stream 10, .file 4] := by decide

/-- C130: log files of earlier calls get nothing any more: `FileHandler` is a `StreamHandler`, so the next `configure`, for instance one that only changes the level, removes it. For every
history, every file and every message. -/
theorem earlier_file_violates (ops : List Op) (path : Nat) (debug : Bool) (level : Nat) :
    Spec.written (run (ops ++ [.configure false (some path), .configure debug none])) level path = 0 := by
  obtain ⟨before, after, _, h⟩ := run_shape (ops ++ [.configure false (some path), .configure debug none])
  have hlast : (Spec.latest (ops ++ [.configure false (some path), .configure debug none])).2 = none := by simp [Spec.latest]
  unfold Spec.written
  rw [List.count_eq_zero]
  intro hm
  unfold reached at hm
  split at hm
  · have := List.mem_of_mem_filter hm
    rw [h, hlast] at this
    simp at this
  · simp at hm

end Splinepy.Logging
