import Verif.Model.ShowOptions

/-!
C102: `show` and `svg.export` do not change the show options.
-/
namespace Splinepy.ShowOptions

variable {V : Type}

theorem export_kwargs_ne_nil (offset : V) (kwargs : List (String × V)) :
    (if kwargs.any (·.1 = "scalarbar_offset") then kwargs else kwargs ++ [("scalarbar_offset", offset)]) ≠ [] := by
  split
  · rename_i h
    intro e
    rw [e] at h
    simp at h
  · simp

/-- C102: an export that ends without an exception leaves the options of all objects as they were, whatever is drawn and whatever the drawing does to the options. Missing: exports that end with
an exception, see `failed_export_violates`. -/
theorem export_keeps_options_partial (valid : String → Bool) (offset : V) (kwargs : List (String × V)) (objects : List (Work V × Options V)) {after : List (Options V)}
    (h : exportCall valid offset kwargs objects = (.done, after)) : after = objects.map (·.2) := by
  unfold exportCall at h
  generalize hk : (if kwargs.any (·.1 = "scalarbar_offset") then kwargs else kwargs ++ [("scalarbar_offset", offset)]) = kw at h
  have hne : kw ≠ [] := hk ▸ export_kwargs_ne_nil offset kwargs
  induction objects generalizing after with
  | nil => simp only [exportLoop, Prod.mk.injEq] at h; exact h.2.symm
  | cons x l ih =>
    obtain ⟨work, o⟩ := x
    simp only [exportLoop, showCall, hne, if_false] at h
    cases hw : (work (overridden valid o kw)).1 with
    | done =>
      simp only [hw, Prod.mk.injEq] at h
      obtain ⟨h1, h2⟩ := h
      rw [← h2, List.map_cons, ← ih (after := (exportLoop valid kw l).2) (by rw [← h1])]
    | raised => simp [hw] at h

/-- C102: `show` with keyword arguments leaves the options as they were if it does not raise. -/
theorem show_keeps_options_partial (valid : String → Bool) (work : Work V) (kwargs : List (String × V)) (hk : kwargs ≠ []) (o : Options V) {after : Options V}
    (h : showCall valid work kwargs o = (.done, after)) : after = o := by
  simp only [showCall, hk, if_false] at h
  cases hw : (work (overridden valid o kwargs)).1 with
  | done => simp only [hw, Prod.mk.injEq] at h; exact h.2.symm
  | raised => simp [hw] at h

/-- the last valid keyword argument with a key decides -/
theorem overridden_last (valid : String → Bool) (o : Options V) (kwargs : List (String × V)) (k : String) (v : V) (hv : valid k = true) :
    overridden valid o (kwargs ++ [(k, v)]) k = some v := by
  simp [overridden, setOption, hv]

/-- C102: if the drawing of an object raises (and has not touched the options itself), the object is left with the options of the call, the objects before it with their own, and those after it
are untouched. -/
theorem failed_export_violates (valid : String → Bool) (offset : V) (kwargs : List (String × V)) (before later : List (Work V × Options V)) (work : Work V) (o : Options V)
    (hb : ∀ x ∈ before, ∀ p, (x.1 p).1 = .done) (hw : ∀ p, work p = (.raised, p)) :
    exportCall valid offset kwargs (before ++ (work, o) :: later) =
      (.raised, before.map (·.2) ++ overridden valid o (if kwargs.any (·.1 = "scalarbar_offset") then kwargs else kwargs ++ [("scalarbar_offset", offset)]) :: later.map (·.2)) := by
  unfold exportCall
  have hne := export_kwargs_ne_nil offset kwargs
  generalize (if kwargs.any (·.1 = "scalarbar_offset") then kwargs else kwargs ++ [("scalarbar_offset", offset)]) = kw at hne ⊢
  induction before with
  | nil => simp [exportLoop, showCall, hne, hw]
  | cons x l ih =>
    obtain ⟨w, p⟩ := x
    have hd : (w (overridden valid p kw)).1 = .done := hb _ List.mem_cons_self (overridden valid p kw)
    rw [List.cons_append, exportLoop]
    simp only [showCall, hne, if_false, hd]
    rw [ih (fun x hx => hb x (List.mem_cons_of_mem _ hx))]
    simp

/-- C102: the options of a spline really change: an export with another colour that raises leaves the spline with this colour. -/
theorem failed_export_changes_violates : ∃ (work : Work String) (o : Options String),
    ((exportCall (fun k => k = "c") "0.1" [("c", "red")] [(work, o)]).2.map fun p => p "c") = [some "red"] ∧ o "c" = some "green" :=
  ⟨fun p => (.raised, p), fun k => if k = "c" then some "green" else none, by decide, by decide⟩

example : exportCall (fun _ => true) "0.1" [("c", "red")] [((fun p => (.done, p)), (fun _ => some "green"))] = (.done, [fun _ => some "green"]) := by
  simp [exportCall, exportLoop, showCall]

end Splinepy.ShowOptions
