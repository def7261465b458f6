import Verif.Model.RefineCache

/-!
C126: the properties of a spline describe the spline that is evaluated, after every history of degree changes.
-/
namespace Splinepy.RefineCache

variable {S V : Type} (c : Core S V)

/-- A reduction that fails leaves the spline as it was (BSplineLib). -/
def Spec.Faithful : Prop := ∀ s d, (c.reduce s d).2 = false → (c.reduce s d).1 = s

/-- The stored value, if there is one, is that of the core. -/
def Fresh (s : State S V) : Prop := ∀ v, s.data = some v → v = c.view s.core

theorem read_fresh {s : State S V} (h : Fresh c s) : (read c s).2 = c.view s.core ∧ Fresh c (read c s).1 ∧ (read c s).1.core = s.core := by
  unfold read
  cases hd : s.data with
  | some v => exact ⟨h v hd, h, rfl⟩
  | none =>
    refine ⟨rfl, fun v hv => ?_, rfl⟩
    simpa using hv.symm

theorem reduce_none_changed (hf : Spec.Faithful c) (s : S) (dims : List Int) (l : List Bool)
    (h : (Unique.reduceDegrees c.reduce c.paraDim s dims).2 = some l) (hn : l.any id = false) :
    (Unique.reduceDegrees c.reduce c.paraDim s dims).1 = s := by
  induction dims generalizing s l with
  | nil => rfl
  | cons d ds ih =>
    simp only [Unique.reduceDegrees] at h ⊢
    by_cases hd : ¬ (d < c.paraDim) ∨ d < 0
    · rw [if_pos hd] at h ⊢
    · rw [if_neg hd] at h ⊢
      simp only [Option.map_eq_some_iff] at h
      obtain ⟨l', h1, rfl⟩ := h
      simp only [List.any_cons, id, Bool.or_eq_false_iff] at hn
      have h2 := hf s d.toNat hn.1
      simp only
      rw [ih _ l' h1 hn.2, h2]

theorem step_fresh (hf : Spec.Faithful c) {s : State S V} (h : Fresh c s) (op : Op) (s' : State S V)
    (hs : step c s op = some (s', true)) : Fresh c s' := by
  cases op with
  | read =>
    simp only [step, Option.some.injEq, Prod.mk.injEq, and_true] at hs
    subst hs
    exact (read_fresh c h).2.1
  | elevate dims =>
    simp only [step, elevateDegrees, Option.map_eq_some_iff] at hs
    obtain ⟨r, _, hr⟩ := hs
    by_cases hb : r.2 = true
    · rw [if_pos hb] at hr
      simp only [Prod.mk.injEq, and_true] at hr
      subst hr
      intro v hv; cases hv
    · rw [if_neg hb] at hr
      simp at hr
  | reduce dims =>
    simp only [step, reduceDegrees, Option.some.injEq, Prod.mk.injEq] at hs
    obtain ⟨h1, h2⟩ := hs
    revert h1 h2
    cases hr : (Unique.reduceDegrees c.reduce c.paraDim s.core dims).2 with
    | none => intro _ h2; simp at h2
    | some l =>
      intro h1 _
      simp only at h1
      subst h1
      intro v hv
      by_cases hl : l.any id = true
      · simp [hl] at hv
      · simp only [hl] at hv
        have := reduce_none_changed c hf s.core dims l hr (by simpa using hl)
        simp only [this]
        exact h v hv

/-- C126, the part that holds: after every history of reading, elevating and reducing in which no call raised, the property that is read is
that of the spline that is evaluated. Missing: `failed_reduction_violates`, `failed_elevation_violates`. -/
theorem property_current_partial (hf : Spec.Faithful c) (s₀ : S) (ops : List Op) (s : State S V)
    (h : run c ⟨s₀, none⟩ ops = some (s, true)) : (read c s).2 = c.view s.core := by
  have key : ∀ (ops : List Op) (a s : State S V), Fresh c a → run c a ops = some (s, true) → Fresh c s := by
    intro ops
    induction ops with
    | nil =>
      intro a s ha hs
      simp only [run, Option.some.injEq, Prod.mk.injEq, and_true] at hs
      exact hs ▸ ha
    | cons op ops ih =>
      intro a s ha hs
      simp only [run, Option.bind_eq_some_iff, Option.map_eq_some_iff] at hs
      obtain ⟨⟨a', b⟩, h1, ⟨t, b'⟩, h2, h3⟩ := hs
      simp only [Prod.mk.injEq, Bool.and_eq_true] at h3
      obtain ⟨rfl, rfl, rfl⟩ := h3
      exact ih a' t (step_fresh c hf ha op a' h1) h2
  exact (read_fresh c (key ops _ s (fun v hv => by cases hv) h)).1

/-- Degrees of a spline of two directions, from zero on every reduction succeeds down to one. -/
def sample : Core (List ℕ) (List ℕ) where
  view := id
  elevate := fun ds d m => ds.set d (ds.getD d 0 + m)
  reduce := fun ds d => if 1 < ds.getD d 0 then (ds.set d (ds.getD d 0 - 1), true) else (ds, false)
  paraDim := 2

example : Spec.Faithful sample ∧
    (run sample ⟨[1, 2], none⟩ [.read, .elevate [1, 0, 1], .read, .reduce [0, 0, 0]]).map (fun r => (r.1.core, r.2)) = some ([1, 4], true) := by
  refine ⟨fun s d h => ?_, by decide +kernel⟩
  unfold sample at h ⊢
  simp only at h ⊢
  split at h
  · simp at h
  · next h' => rw [if_neg h']

/-- C126 is violated, for every spline: after `reduce_degrees([d, -1])`, which reduces direction `d` and then raises, a property that has been read before is
the one of the spline before the call. -/
theorem failed_reduction_violates (s : S) (d : ℕ) (hd : d < c.paraDim) (hchange : c.view (c.reduce s d).1 ≠ c.view s) :
    ∃ t, run c ⟨s, none⟩ [.read, .reduce [d, -1]] = some (t, false) ∧ (read c t).2 ≠ c.view t.core := by
  refine ⟨⟨(c.reduce s d).1, some (c.view s)⟩, ?_, fun h => hchange h.symm⟩
  have hu : Unique.reduceDegrees c.reduce c.paraDim s [(d : Int), -1] = ((c.reduce s d).1, none) := by
    simp only [Unique.reduceDegrees]
    rw [if_neg (by omega), if_pos (by omega)]
    simp
  simp [run, step, read, reduceDegrees, hu]

example : (1 : ℕ) < sample.paraDim ∧ sample.view (sample.reduce [1, 2] 1).1 ≠ sample.view [1, 2] := by decide

/-- C126 is violated: `elevate_degrees([0, 5])` elevates direction 0 and raises; `degrees` still returns the old degrees. -/
theorem failed_elevation_violates :
    ∃ t, run sample ⟨[1, 1], none⟩ [.read, .elevate [0, 5]] = some (t, false) ∧ (read sample t).2 = [1, 1] ∧ t.core = [2, 1] :=
  ⟨⟨[2, 1], some [1, 1]⟩, by rfl, by rfl, by rfl⟩

/-- A refused reduction changes nothing if the first direction is invalid; the properties stay right. -/
theorem refused_first (s : State S V) (d : Int) (ds : List Int) (hd : d < 0 ∨ (c.paraDim : Int) ≤ d) :
    reduceDegrees c s (d :: ds) = (s, none) := by
  have hu : Unique.reduceDegrees c.reduce c.paraDim s.core (d :: ds) = (s.core, none) := by
    simp only [Unique.reduceDegrees]
    rw [if_pos (by omega)]
  simp [reduceDegrees, hu]

example : (reduceDegrees sample ⟨[3, 3], none⟩ [7, 0]).1.core = [3, 3] := by decide

end Splinepy.RefineCache
