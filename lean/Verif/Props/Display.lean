import Verif.Model.Display
import Mathlib.Tactic.SplitIfs

/-!
C144: what `show` shows.
-/
namespace Splinepy.Display
open Splinepy.ShowOptions

namespace Spec

/-- The value of an option for a call: the keyword argument if there is one, else the option of the spline, else the default. -/
def wanted (s : Subject) (kwargs : List (String × Bool)) (key : String) (default : Bool) : Bool :=
  match kwargs.lookup key with
  | some v => v
  | none => (s.options key).getD default

/-- an option is given in the call or in the options -/
def given (s : Subject) (kwargs : List (String × Bool)) (key : String) : Prop := (kwargs.lookup key).isSome ∨ (s.options key).isSome

/-- What belongs into a picture of a spline. -/
def Expected (s : Subject) (kwargs : List (String × Bool)) : Element → Prop
  | .spline => True
  | .knots => wanted s kwargs "knots" true
  | .controlPoints => wanted s kwargs "control_points" true
  | .controlPointIds => wanted s kwargs "control_point_ids" (wanted s kwargs "control_points" true)
  | .controlMesh => wanted s kwargs "control_mesh" (wanted s kwargs "control_points" true)
  | .arrowData => given s kwargs "arrow_data" ∧ (s.located ∨ given s kwargs "arrow_data_on")
  | .fittingQueries => s.fittingQueries ∧ wanted s kwargs "fitting_queries" true
  | .parametricSpline => flag kwargs "parametric_space"

end Spec

/-- everything in the result of a call -/
def Shown.elements : Shown → List Element
  | .gustaf l => l
  | .backend l => l
  | .window p => p.flatten

theorem overridden_eq (ok : String → Bool) (o : Options Bool) (kw : List (String × Bool)) (hn : (kw.map (·.1)).Nodup) (k : String) :
    overridden ok o kw k = if ok k then (kw.lookup k).or (o k) else o k := by
  unfold overridden
  induction kw generalizing o with
  | nil => simp
  | cons x l ih =>
    obtain ⟨a, v⟩ := x
    rw [List.map_cons, List.nodup_cons] at hn
    rw [List.foldl_cons, ih _ hn.2]
    by_cases hk : ok k = true
    · simp only [hk, if_true, List.lookup_cons]
      by_cases e : k = a
      · subst e
        have : l.lookup k = none := by
          rw [List.lookup_eq_none_iff]
          intro p hp
          simp only [bne_iff_ne, ne_eq]
          rintro rfl
          exact hn.1 (List.mem_map.mpr ⟨p, hp, rfl⟩)
        simp [this, setOption, hk]
      · have e' : (k == a) = false := by simpa using e
        have : setOption ok o (a, v) k = o k := by unfold setOption; split <;> simp [e]
        simp only [e', this]
    · have : setOption ok o (a, v) k = o k := by
        unfold setOption
        by_cases e : k = a
        · subst e; simp [hk]
        · split <;> simp [e]
      simp [hk, this]

theorem callOptions_eq (s : Subject) (kw : List (String × Bool)) (hn : (kw.map (·.1)).Nodup) (k : String) (hv : valid s.multipatch k = true) :
    callOptions s kw k = (kw.lookup k).or (s.options k) := by
  unfold callOptions
  split
  · next h => simp [h]
  · rw [overridden_eq _ _ _ hn, if_pos hv]

theorem callOptions_getD (s : Subject) (kw : List (String × Bool)) (hn : (kw.map (·.1)).Nodup) (k : String) (hv : valid s.multipatch k = true) (d : Bool) :
    (callOptions s kw k).getD d = Spec.wanted s kw k d := by
  rw [callOptions_eq s kw hn k hv, Spec.wanted]
  cases kw.lookup k <;> simp

theorem callOptions_isSome (s : Subject) (kw : List (String × Bool)) (hn : (kw.map (·.1)).Nodup) (k : String) (hv : valid s.multipatch k = true) :
    (callOptions s kw k).isSome = true ↔ Spec.given s kw k := by
  rw [callOptions_eq s kw hn k hv, Spec.given]
  cases kw.lookup k <;> simp

/-- The calls the parts below are about: all calls for splines, and for multipatches (which have no fitting queries) those that ask neither for the parametric space nor for places of arrows. -/
def Spec.Plain (s : Subject) (kw : List (String × Bool)) : Prop :=
  s.multipatch = true → s.fittingQueries = false ∧ flag kw "parametric_space" = false ∧ "arrow_data_on" ∉ kw.map (·.1)

/-- The shown objects are the expected ones. -/
theorem makeShowable_iff (s : Subject) (kw : List (String × Bool)) (hs : Spec.Plain s kw) (hn : (kw.map (·.1)).Nodup) (e : Element) (he : e ≠ .parametricSpline) :
    e ∈ makeShowable s (callOptions s kw) ↔ Spec.Expected s kw e := by
  have hv : ∀ k ∈ ["knots", "control_points", "control_point_ids", "control_mesh", "arrow_data"], valid s.multipatch k = true := by
    cases s.multipatch <;> decide
  have g := fun k hk d => callOptions_getD s kw hn k (hv k hk) d
  have i := fun k hk => callOptions_isSome s kw hn k (hv k hk)
  have ho : (callOptions s kw "arrow_data_on").isSome = true ↔ Spec.given s kw "arrow_data_on" := by
    cases hm : s.multipatch
    · exact callOptions_isSome s kw hn _ (by rw [hm]; decide)
    · have hk : kw.lookup "arrow_data_on" = none := by
        rw [List.lookup_eq_none_iff]
        intro p hp
        simp only [bne_iff_ne, ne_eq]
        intro e
        exact (hs hm).2.2 (List.mem_map.mpr ⟨p, hp, e.symm⟩)
      have : callOptions s kw "arrow_data_on" = s.options "arrow_data_on" := by
        unfold callOptions
        split
        · rfl
        · rw [overridden_eq _ _ _ hn, hk]; simp
      rw [this, Spec.given, hk]
      simp
  have hf : (s.fittingQueries && (callOptions s kw "fitting_queries").getD true) = (s.fittingQueries && Spec.wanted s kw "fitting_queries" true) := by
    cases hm : s.multipatch
    · rw [callOptions_getD s kw hn _ (by rw [hm]; decide)]
    · rw [(hs hm).1]; rfl
  simp only [makeShowable, g "control_points" (by simp), g "knots" (by simp), g "control_point_ids" (by simp), g "control_mesh" (by simp), hf]
  cases e <;> simp [Spec.Expected, i "arrow_data", ho] at he ⊢

/-- C144: which objects a call of `show` gives: exactly the expected ones, each once, and in every form (dictionary of gustaf objects, of backend objects, window). The call raises
exactly for dimensions that cannot be shown. Missing: multipatches with parametric space
or places of arrows (`multipatch_violates`), the options of the parametric panel (`panel_violates`). -/
theorem shown_partial (s : Subject) (kw : List (String × Bool)) (hs : Spec.Plain s kw) (hn : (kw.map (·.1)).Nodup) :
    ((show_ s kw).isSome = true ↔ (s.paraDim = 1 ∨ s.paraDim = 2 ∨ s.paraDim = 3) ∧ s.paraDim ≤ s.dim ∧ 2 ≤ s.dim ∧ s.dim ≤ 3) ∧
    ∀ r, show_ s kw = some r → r.elements.Nodup ∧ (∀ e, e ∈ r.elements ↔ Spec.Expected s kw e) ∧
      ((∃ l, r = .gustaf l) ↔ flag kw "return_gustaf" = true) ∧
      ((∃ l, r = .backend l) ↔ flag kw "return_gustaf" = false ∧ flag kw "return_showable" = true) := by
  have hpm : (flag kw "parametric_space" && s.multipatch) = false := by
    cases hm : s.multipatch
    · simp
    · rw [(hs hm).2.1]; rfl
  have hmem : ∀ e, e ∈ (if flag kw "parametric_space" then makeShowable s (callOptions s kw) ++ [Element.parametricSpline] else makeShowable s (callOptions s kw)) ↔ Spec.Expected s kw e := by
    intro e
    by_cases he : e = .parametricSpline
    · subst he
      have : Element.parametricSpline ∉ makeShowable s (callOptions s kw) := by simp [makeShowable]
      split <;> simp_all [Spec.Expected]
    · rw [← makeShowable_iff s kw hs hn e he]
      split <;> simp [he]
  have hnd : (makeShowable s (callOptions s kw)).Nodup := by
    simp only [makeShowable]
    generalize ((callOptions s kw) "knots").getD true = a
    generalize ((callOptions s kw) "control_points").getD true = b
    generalize ((callOptions s kw) "control_point_ids").getD b = c
    generalize ((callOptions s kw) "control_mesh").getD b = d
    generalize (s.fittingQueries && ((callOptions s kw) "fitting_queries").getD true) = e
    generalize (((callOptions s kw) "arrow_data").isSome && (s.located || ((callOptions s kw) "arrow_data_on").isSome)) = f
    revert a b c d e f
    decide
  have hp : Element.parametricSpline ∉ makeShowable s (callOptions s kw) := by simp [makeShowable]
  refine ⟨?_, ?_⟩
  · have : (show_ s kw).isSome = true ↔ (s.paraDim, s.dim) ∈ [(1, 2), (1, 3), (2, 2), (2, 3), (3, 3)] := by
      unfold show_
      split
      · next h => simp only [hpm, Bool.false_eq_true, if_false, h, iff_true]; split_ifs <;> rfl
      · next h => simp [h]
    rw [this]
    simp only [List.mem_cons, Prod.mk.injEq, List.not_mem_nil, or_false]
    omega
  · intro r h
    unfold show_ at h
    split at h
    · simp only [hpm, Bool.false_eq_true, if_false] at h
      cases hg : flag kw "return_gustaf" <;> cases hb : flag kw "return_showable" <;> cases hq : flag kw "parametric_space" <;>
        simp only [hg, hb, hq, if_true, Bool.false_eq_true, if_false, Option.some.injEq] at h hmem <;> subst h <;>
        simp only [Shown.elements, List.flatten_cons, List.flatten_nil, List.append_nil] <;>
        refine ⟨?_, ?_, by simp, by simp⟩ <;>
        first
          | exact hnd
          | exact hmem
          | exact List.nodup_append.mpr ⟨hnd, by simp, by rintro a ha b hb; simp at hb; rintro rfl; exact hp (hb ▸ ha)⟩
          | exact List.nodup_append.mpr ⟨by simp, hnd, by rintro a ha b hb; simp at ha; rintro rfl; exact hp (ha ▸ hb)⟩
          | (intro e; rw [← hmem e]; simp [or_comm])
    · cases h

/-- C144: a window has one panel with everything; if the parametric space is asked for, this is alone in a first panel and everything else in a second one. -/
theorem window_panels (s : Subject) (kw : List (String × Bool)) (hs : Spec.Plain s kw) (hn : (kw.map (·.1)).Nodup) {panels : List (List Element)} (h : show_ s kw = some (.window panels)) :
    (flag kw "parametric_space" = true → ∃ els, panels = [[.parametricSpline], els] ∧ ∀ e, e ∈ els ↔ Spec.Expected s kw e ∧ e ≠ .parametricSpline) ∧
    (flag kw "parametric_space" = false → ∃ els, panels = [els] ∧ ∀ e, e ∈ els ↔ Spec.Expected s kw e) := by
  have hm : ∀ e, e ∈ makeShowable s (callOptions s kw) ↔ Spec.Expected s kw e ∧ e ≠ .parametricSpline := by
    intro e
    by_cases he : e = .parametricSpline
    · subst he
      simp [makeShowable]
    · simp [makeShowable_iff s kw hs hn e he, he]
  unfold show_ at h
  constructor
  · intro hp
    simp only [hp, Bool.true_and, if_true] at h
    split_ifs at h <;> simp only [Option.some.injEq, Shown.window.injEq, reduceCtorEq] at h
    exact ⟨_, h.symm, hm⟩
  · intro hp
    simp only [hp, Bool.false_and, Bool.false_eq_true, if_false] at h
    split_ifs at h <;> simp only [Option.some.injEq, Shown.window.injEq, reduceCtorEq] at h
    refine ⟨_, h.symm, fun e => ?_⟩
    rw [hm]
    refine ⟨fun h => h.1, fun h => ⟨h, ?_⟩⟩
    rintro rfl
    simp [Spec.Expected, hp] at h

/-- C144: `showable` gives the same objects, as backend objects. -/
theorem showable_eq (s : Subject) (kw : List (String × Bool)) (hs : Spec.Plain s kw) (hn : (kw.map (·.1)).Nodup) (hr : "return_showable" ∉ kw.map (·.1))
    (hg : flag kw "return_gustaf" = false) {r : Shown} (h : showable s kw = some r) :
    ∃ l, r = .backend l ∧ ∀ e, e ∈ l ↔ Spec.Expected s kw e := by
  unfold showable at h
  split at h
  · cases h
  · have hs' : Spec.Plain s (("return_showable", true) :: kw) := fun hm => by
      obtain ⟨a, b, c⟩ := hs hm
      exact ⟨a, by simpa [flag, List.lookup_cons] using b, by simpa using c⟩
    have hn' : ((("return_showable", true) :: kw).map (·.1)).Nodup := by simpa using ⟨by simpa using hr, hn⟩
    obtain ⟨-, h2, -, h4⟩ := (shown_partial s _ hs' hn').2 r h
    have hg' : flag (("return_showable", true) :: kw) "return_gustaf" = false := by
      simpa [flag, List.lookup_cons] using hg
    obtain ⟨l, rfl⟩ := h4.mpr ⟨hg', by simp [flag, List.lookup_cons]⟩
    refine ⟨l, rfl, fun e => (h2 e).trans ?_⟩
    have hl : ∀ k, k ≠ "return_showable" → ((("return_showable", true) :: kw).lookup k) = kw.lookup k := by
      intro k hk
      have : (k == "return_showable") = false := by simpa using hk
      rw [List.lookup_cons, this]
    cases e <;> simp [Spec.Expected, Spec.wanted, Spec.given, flag, hl]

/-- C144: a multipatch cannot be shown with its parametric space: the call raises, whatever else is asked for. And places of arrows given in the call are ignored. -/
theorem multipatch_violates (s : Subject) (hs : s.multipatch = true) (kw : List (String × Bool)) :
    (flag kw "parametric_space" = true → show_ s kw = none) ∧
    ((kw.map (·.1)).Nodup → s.located = false → s.options "arrow_data_on" = none → Element.arrowData ∉ makeShowable s (callOptions s kw)) := by
  refine ⟨fun hp => ?_, fun hn hl ho => ?_⟩
  · unfold show_
    split
    · simp [hs, hp]
    · rfl
  · have : callOptions s kw "arrow_data_on" = none := by
      unfold callOptions
      split
      · exact ho
      · rw [overridden_eq _ _ _ hn, hs, ho]; rfl
    simp [makeShowable, hl, this]

/-- C144: the parametric panel does not follow the keyword arguments of the call: there is a spline and a call for which the value of an option differs between the panels. -/
theorem panel_violates : ∃ (s : Subject) (kw : List (String × Bool)), (kw.map (·.1)).Nodup ∧ flag kw "parametric_space" = true ∧ (show_ s kw).isSome = true ∧
    callOptions s kw "knots" = some false ∧ panelOptions s kw "knots" = none :=
  ⟨⟨false, 2, 3, false, false, fun _ => none⟩, [("knots", false), ("parametric_space", true)], by decide, by decide, by decide, by decide, rfl⟩

/-- C144: an FFD object with a mesh and a spline shows the mesh, the spline with the deformed mesh, and the deformed mesh; `return_showable` gives the backend objects of the three. Missing:
`return_gustaf` (`ffd_gustaf_violates`), the options of the spline (`ffd_alpha_violates`), missing meshes or splines (`ffd_message_violates`). -/
theorem ffd_shown_partial {V : Type} (low : V) (f : Ffd V) (hm : f.mesh = true) (hs : f.spline = true) :
    (ffdShow low false false f).2 = .ok (.window [["original_mesh"], ["spline", "mesh"], ["mesh"]]) ∧
    (ffdShow low false true f).2 = .ok (.dict [("original_mesh", .backend), ("spline", .backends), ("mesh", .backend)]) ∧
    (ffdShow low true true f).2 = .valueError ∧ (ffdShow low true true f).1 = f := by
  simp [ffdShow, ffdShowable, hm, hs]

/-- C144: `FFD.show(return_gustaf=True)` never returns gustaf objects, although `showable(return_gustaf=True)` does so for the meshes. -/
theorem ffd_gustaf_violates {V : Type} (low : V) (f : Ffd V) (items : List (String × Kind)) :
    ((ffdShow low true false f).2 = .ok (.dict items) → ∀ i ∈ items, i.2 ≠ .gustaf) ∧
    (f.mesh = true → f.spline = true → (ffdShow low true false f).2 = (ffdShow low false true f).2 ∧
      (ffdShowable low true f).2 = .ok [("original_mesh", .gustaf), ("spline", .spline), ("mesh", .gustaf)]) := by
  obtain ⟨m, s, a⟩ := f
  cases m <;> cases s <;> simp [ffdShow, ffdShowable]
  rintro rfl
  simp only [List.mem_cons, Prod.mk.injEq, List.not_mem_nil, or_false, Prod.forall]
  rintro a b (⟨-, rfl⟩ | ⟨-, rfl⟩ | ⟨-, rfl⟩) <;> simp

/-- C144: showing an FFD object overwrites the transparency the user has set for its spline. -/
theorem ffd_alpha_violates {V : Type} (low : V) (f : Ffd V) (hm : f.mesh = true) (hs : f.spline = true) (g : Bool) (hg : f.alpha ≠ some low) :
    (ffdShow low g false f).1.alpha = some low ∧ (ffdShow low g false f).1 ≠ f := by
  obtain ⟨m, s, a⟩ := f
  subst hm hs
  cases g <;> simp [ffdShow, ffdShowable] <;> exact fun e => hg (by simp [e])

/-- C144: if only one of mesh and spline is missing, the message that asks to set it is not raised, but an attribute error of `None`. -/
theorem ffd_message_violates {V : Type} (low : V) (f : Ffd V) (r : Bool) :
    (ffdShow low false r f).2 = .valueError ↔ f.mesh = false ∧ f.spline = false := by
  obtain ⟨m, s, a⟩ := f
  cases m <;> cases s <;> cases r <;> simp [ffdShow, ffdShowable]

-- Non-vacuity: a multipatch of curves; a surface in space without control points but with its control mesh, as gustaf objects, with its parametric space.
example : show_ ⟨false, 2, 3, true, true, fun k => if k = "control_points" then some false else none⟩
    [("control_mesh", true), ("parametric_space", true), ("return_gustaf", true), ("arrow_data", true)] =
      some (.gustaf [.spline, .knots, .arrowData, .controlMesh, .fittingQueries, .parametricSpline]) := by decide +kernel
example : Spec.Plain ⟨true, 1, 2, false, true, fun _ => none⟩ [("knots", false), ("arrow_data", true)] ∧
    show_ ⟨true, 1, 2, false, true, fun _ => none⟩ [("knots", false), ("arrow_data", true)] = some (.window [[.spline, .arrowData, .controlPoints, .controlPointIds, .controlMesh]]) :=
  ⟨fun _ => ⟨rfl, by decide, by decide⟩, by decide +kernel⟩
example : ([("control_mesh", true), ("parametric_space", true), ("return_gustaf", true), ("arrow_data", true)].map (·.1)).Nodup := by decide
example : showable ⟨false, 1, 2, false, false, fun _ => none⟩ [("control_point_ids", false)] = some (.backend [.spline, .knots, .controlPoints, .controlMesh]) := by decide +kernel
example : flag [("parametric_space", true)] "parametric_space" = true := by decide
example : show_ ⟨false, 1, 2, false, false, fun _ => none⟩ [("parametric_space", true), ("control_points", false)] = some (.window [[.parametricSpline], [.spline, .knots]]) := by decide +kernel
example : (⟨true, true, none⟩ : Ffd ℕ).alpha ≠ some 3 := by decide

end Splinepy.Display
