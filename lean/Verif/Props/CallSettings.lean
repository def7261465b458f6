import Verif.Model.CallSettings
import Mathlib.Tactic.NormNum

/-!
C124: tolerances and numbers of threads that are passed to a call apply to this call, and to no other.
-/
namespace Splinepy.CallSettings

variable {T O : Type} (c : Computations T O) (dt : ℚ) (dn : ℤ)

/-- Tolerance the user has set last. -/
def Spec.tolerance (init : ℚ) : List Op → ℚ
  | [] => init
  | .setTolerance t :: ops => Spec.tolerance t ops
  | _ :: ops => Spec.tolerance init ops

/-- Number of threads the user has set last. -/
def Spec.threads (init : ℤ) : List Op → ℤ
  | [] => init
  | .setThreads n :: ops => Spec.threads n ops
  | _ :: ops => Spec.threads init ops

theorem getInterfaces_settings (s : State T O) (r : Bool) :
    (getInterfaces c s r).1.tolerance = s.tolerance ∧ (getInterfaces c s r).1.threads = s.threads := by
  unfold getInterfaces
  split
  · exact ⟨rfl, rfl⟩
  · cases c.detect s.tolerance <;> exact ⟨rfl, rfl⟩

theorem step_settings (s : State T O) (op : Op) (h : (step c dt dn s op).2 ≠ .raised) :
    (step c dt dn s op).1.tolerance = Spec.tolerance s.tolerance [op] ∧
    (step c dt dn s op).1.threads = Spec.threads s.threads [op] := by
  cases op with
  | setTolerance t => exact ⟨rfl, rfl⟩
  | setThreads n => exact ⟨rfl, rfl⟩
  | determine t r =>
    have hg := getInterfaces_settings c { s with tolerance := t.getD dt } r
    simp only [step, determineInterfaces] at h ⊢
    revert h; revert hg
    rcases getInterfaces c { s with tolerance := t.getD dt } r with ⟨s', _ | tb⟩
    · intro _ h; exact absurd rfl h
    · intro hg _; exact ⟨rfl, hg.2⟩
  | interfaces =>
    have hg := getInterfaces_settings c s false
    simp only [step, readInterfaces] at h ⊢
    revert h; revert hg
    rcases getInterfaces c s false with ⟨s', _ | tb⟩
    · intro _ h; exact absurd rfl h
    · intro hg _; exact hg
  | boundary n =>
    have hg := getInterfaces_settings c { s with threads := n.getD dn } false
    simp only [step, boundaryMultipatch] at h ⊢
    revert h; revert hg
    rcases getInterfaces c { s with threads := n.getD dn } false with ⟨s', _ | tb⟩
    · intro _ h; exact absurd rfl h
    · intro hg h
      by_cases he : c.extract tb s'.threads = true
      · simp only [he, if_true]; exact ⟨hg.1, rfl⟩
      · simp only [he] at h; exact absurd rfl h
  | orientations t =>
    have hg := getInterfaces_settings c s false
    simp only [step, interfaceOrientations] at h ⊢
    cases ho : s.orientations with
    | some o => exact ⟨rfl, rfl⟩
    | none =>
      simp only [ho] at h ⊢
      revert h; revert hg
      rcases getInterfaces c s false with ⟨s', _ | tb⟩
      · intro _ h; exact absurd rfl h
      · intro hg _
        simp only
        split <;> exact hg

/-- C124, the part that holds: after every history of calls without an exception, the tolerance and the number of threads of the
multipatch are those the user has set last. Missing: `tolerance_leaks_violates`, `threads_leak_violates`. -/
theorem settings_kept_partial (s : State T O) (ops : List Op) (h : ∀ a ∈ (run c dt dn s ops).2, a ≠ .raised) :
    (run c dt dn s ops).1.tolerance = Spec.tolerance s.tolerance ops ∧
    (run c dt dn s ops).1.threads = Spec.threads s.threads ops := by
  induction ops generalizing s with
  | nil => exact ⟨rfl, rfl⟩
  | cons op ops ih =>
    have h1 := step_settings c dt dn s op (h _ (List.mem_cons_self ..))
    have h2 := ih (step c dt dn s op).1 (fun a ha => h a (List.mem_cons_of_mem _ ha))
    simp only [run]
    rw [h2.1, h2.2, h1.1, h1.2]
    cases op <;> exact ⟨rfl, rfl⟩

/-- `determine_interfaces(tol, recompute=True)` returns the interfaces for this tolerance, after every history; it raises exactly if the
detection with this tolerance does. Later reads of `interfaces` return the same table. -/
theorem determine_uses_tolerance (s : State T O) (tol : ℚ) :
    (∀ t, c.detect tol = some t →
      (step c dt dn s (.determine (some tol) true)).2 = .table t ∧
      (step c dt dn (step c dt dn s (.determine (some tol) true)).1 .interfaces).2 = .table t) ∧
    (c.detect tol = none → (step c dt dn s (.determine (some tol) true)).2 = .raised) := by
  constructor
  · intro t ht
    constructor <;> simp [step, determineInterfaces, readInterfaces, getInterfaces, ht]
  · intro ht
    simp [step, determineInterfaces, getInterfaces, ht]

/-- A toy multipatch: tolerances above one raise; the table is the tolerance; orientations raise for tolerances above one half. -/
def toy : Computations ℚ ℚ := ⟨fun t => if t ≤ 1 then some t else none, fun t tol => (t + tol, decide (1 / 2 < tol)), fun _ n => decide (n ≤ 4)⟩

/-- A fresh multipatch. -/
def fresh : State ℚ ℚ := ⟨1 / 4, 1, none, none⟩

example : (∀ a ∈ (run toy (1 / 8) 1 fresh [.interfaces, .setTolerance (1 / 3), .determine (some (1 / 2)) true, .boundary (some 3)]).2, a ≠ .raised)
    ∧ (run toy (1 / 8) 1 fresh [.interfaces, .setTolerance (1 / 3), .determine (some (1 / 2)) true, .boundary (some 3)]).1.tolerance = 1 / 3 := by
  constructor
  · simp only [run, step, readInterfaces, determineInterfaces, boundaryMultipatch, getInterfaces, toy, fresh]
    norm_num
    exact ⟨nofun, nofun, nofun, nofun⟩
  · simp only [run, step, readInterfaces, determineInterfaces, boundaryMultipatch, getInterfaces, toy, fresh]
    norm_num

/-- After `determine_interfaces(tol, recompute=True)` the orientations are those of the new interfaces, for the tolerance of the call, whatever was stored before. -/
theorem recomputed_orientations (s : State T O) (tol tol' : ℚ) (t : T) (h : c.detect tol = some t) :
    (step c dt dn (step c dt dn s (.determine (some tol) true)).1 (.orientations (some tol'))).2 =
      if (c.orient t tol').2 then .raised else .rows (c.orient t tol').1 := by
  by_cases h2 : (c.orient t tol').2 = true <;> simp [step, determineInterfaces, interfaceOrientations, getInterfaces, h, h2]

example : toy.detect (1 / 2) = some (1 / 2) := by
  simp only [toy]; norm_num

/-- C124 is violated: if `determine_interfaces` raises, its tolerance stays with the multipatch; if it had no interfaces yet, reading them raises from now on, although
the detection with the tolerance of the multipatch succeeds. -/
theorem tolerance_leaks_violates (s : State T O) (tol : ℚ) (h : c.detect tol = none) (r : Bool) (hn : s.interfaces = none) :
    (step c dt dn s (.determine (some tol) r)).1.tolerance = tol ∧
    (step c dt dn (step c dt dn s (.determine (some tol) r)).1 .interfaces).2 = .raised ∧
    (∀ t, c.detect s.tolerance = some t → (step c dt dn s .interfaces).2 = .table t) := by
  refine ⟨?_, ?_, fun t ht => ?_⟩
  · cases r <;> simp [step, determineInterfaces, getInterfaces, h, hn]
  · cases r <;> simp [step, determineInterfaces, readInterfaces, getInterfaces, h, hn]
  · simp [step, readInterfaces, getInterfaces, hn, ht]

example : toy.detect 2 = none ∧ fresh.interfaces = none ∧ toy.detect fresh.tolerance = some (1 / 4) := by
  simp only [toy, fresh]; norm_num

/-- C124 is violated: if `boundary_multipatch(nthreads=n)` raises, `n` stays the number of threads of the multipatch. -/
theorem threads_leak_violates (s : State T O) (n : ℤ)
    (h : (step c dt dn s (.boundary (some n))).2 = .raised) : (step c dt dn s (.boundary (some n))).1.threads = n := by
  have hg := getInterfaces_settings c { s with threads := n } false
  simp only [step, boundaryMultipatch, Option.getD_some] at h ⊢
  revert h; revert hg
  rcases getInterfaces c { s with threads := n } false with ⟨s', _ | tb⟩
  · intro hg _; exact hg.2
  · intro hg h
    by_cases he : c.extract tb s'.threads = true
    · simp [he] at h
    · simp only [he]; exact hg.2

example : (step toy (1 / 8) 1 fresh (.boundary (some 9))).2 = .raised := by
  simp only [step, boundaryMultipatch, getInterfaces, toy, fresh]; norm_num

/-- C124 is violated: once interfaces are stored, `determine_interfaces(tol)` returns them whatever the tolerance. -/
theorem stored_interfaces_violates (s : State T O) (t : T) (hs : s.interfaces = some t) (tol : ℚ) :
    (step c dt dn s (.determine (some tol) false)).2 = .table t := by
  simp [step, determineInterfaces, getInterfaces, hs]

/-- … so that two calls with different tolerances return the same table, and the second is not the table of its tolerance. -/
theorem second_tolerance_ignored_violates :
    (run toy (1 / 8) 1 fresh [.determine (some (1 / 2)) false, .determine (some (1 / 3)) false]).2 = [.table (1 / 2), .table (1 / 2)] ∧
    toy.detect (1 / 3) = some (1 / 3) := by
  simp only [run, step, determineInterfaces, getInterfaces, toy, fresh]; norm_num

/-- C124 is violated: `interface_orientations` returns stored rows whatever the tolerance; and after a call that raised it returns the
unfinished rows of that call, without an exception. -/
theorem orientations_violates (s : State T O) (hs : s.orientations = none) (t : T) (hi : s.interfaces = some t) (tol tol' : ℚ) :
    (step c dt dn (step c dt dn s (.orientations (some tol))).1 (.orientations (some tol'))).2 = .rows (c.orient t tol).1 ∧
    ((c.orient t tol).2 = true → (step c dt dn s (.orientations (some tol))).2 = .raised) ∧
    ((c.orient t tol).2 = false → (step c dt dn s (.orientations (some tol))).2 = .rows (c.orient t tol).1) := by
  refine ⟨?_, fun h => ?_, fun h => ?_⟩
  · by_cases h : (c.orient t tol).2 = true <;> simp [step, interfaceOrientations, getInterfaces, hs, hi, h]
  · simp [step, interfaceOrientations, getInterfaces, hs, hi, h]
  · simp [step, interfaceOrientations, getInterfaces, hs, hi, h]

example : ({ fresh with interfaces := some 5 } : State ℚ ℚ).orientations = none ∧ (toy.orient 5 1).2 = true := by
  simp only [toy, fresh]; norm_num

end Splinepy.CallSettings
