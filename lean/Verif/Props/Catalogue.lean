import Verif.Model.Catalogue
import Mathlib.Data.List.Forall2
import Mathlib.Tactic.Common

/-!
C134: the answers of the catalogues of splinepy do not depend on what callers do with earlier answers.
-/
namespace Splinepy.Catalogue

/-! ### Specification -/

/-- the kinds of splines -/
def Spec.Known (name : String) : Prop := name = "Bezier" ∨ name = "RationalBezier" ∨ name = "BSpline" ∨ name = "NURBS"

/-- Every spline needs degrees and control points, B-splines and NURBS knot vectors, rational splines weights. -/
def Spec.Needs (name property : String) : Prop :=
  Spec.Known name ∧ (property = "degrees" ∨ property = "control_points" ∨ (property = "knot_vectors" ∧ (name = "BSpline" ∨ name = "NURBS")) ∨
    (property = "weights" ∧ (name = "RationalBezier" ∨ name = "NURBS")))

/-- The answer is a set with exactly these elements, at the time of the answer. -/
def Spec.AnswersSet (r : Answer × State) (P : String → Prop) : Prop := ∃ ref v, r.1 = .set ref ∧ r.2.sets[ref]? = some v ∧ ∀ p, p ∈ v ↔ P p

/-- The answer is a dictionary with exactly these entries, at the time of the answer. -/
def Spec.AnswersDict (r : Answer × State) (P : String → TileClass → Prop) : Prop := ∃ ref v, r.1 = .dict ref ∧ r.2.dicts[ref]? = some v ∧ ∀ k c, (k, c) ∈ v ↔ P k c

/-- No caller has changed a set that `union()` or `intersection()` returned: a set that was changed is not the one an argument-less call returns at that time. -/
def Spec.Careful (classes : List TileClass) (ops : List Op) : Prop :=
  ∀ pre i f post, ops = pre ++ .changeSet i f :: post → ∀ ref, (run (initial classes) pre).handedSets[i]? = some ref →
    (∀ t, step (run (initial classes) pre) (.union []) ≠ (.set ref, t)) ∧ ∀ t, step (run (initial classes) pre) (.intersection []) ≠ (.set ref, t)

/-! ### the table of required properties -/

theorem required_iff (name : String) : (∃ l, requiredSplineProperties name = some l) ↔ Spec.Known name := by
  unfold requiredSplineProperties Spec.Known
  split <;> simp_all

theorem required_none (name : String) (h : ¬Spec.Known name) : requiredSplineProperties name = none := by
  cases hr : requiredSplineProperties name with
  | none => rfl
  | some l => exact absurd ((required_iff name).1 ⟨l, hr⟩) h

theorem mem_required {name : String} {l : List String} (h : requiredSplineProperties name = some l) (p : String) : p ∈ l ↔ Spec.Needs name p := by
  have hk : Spec.Known name := (required_iff name).1 ⟨l, h⟩
  unfold Spec.Needs
  simp only [hk, true_and]
  obtain rfl | rfl | rfl | rfl := hk
  all_goals
    simp only [requiredSplineProperties, Option.some.injEq] at h
    subst h
    simp
  all_goals tauto

theorem mem_unionAll (p : String) : p ∈ unionAll ↔ ∃ name, Spec.Needs name p := by
  have h : ∀ name l, requiredSplineProperties name = some l → ∀ p ∈ l, p ∈ unionAll := by
    intro name l hl
    obtain rfl | rfl | rfl | rfl := (required_iff name).1 ⟨l, hl⟩
    all_goals
      simp only [requiredSplineProperties, Option.some.injEq] at hl
      subst hl
      decide
  constructor
  · intro hp
    have : unionAll = {"degrees", "control_points", "weights", "knot_vectors"} := by decide
    rw [this] at hp
    refine ⟨"NURBS", Or.inr (Or.inr (Or.inr rfl)), ?_⟩
    simp only [Finset.mem_insert, Finset.mem_singleton] at hp
    tauto
  · rintro ⟨name, hn⟩
    obtain ⟨l, hl⟩ := (required_iff name).2 hn.1
    exact h name l hl p ((mem_required hl p).2 hn)

theorem mem_intersectionAll (p : String) : p ∈ intersectionAll ↔ ∀ name, Spec.Known name → Spec.Needs name p := by
  have : intersectionAll = {"degrees", "control_points"} := by decide
  rw [this]
  simp only [Finset.mem_insert, Finset.mem_singleton]
  constructor
  · intro hp name hk
    exact ⟨hk, by tauto⟩
  · intro h
    have h1 := (h "Bezier" (Or.inl rfl)).2
    have h2 := (h "RationalBezier" (Or.inr (Or.inl rfl))).2
    simp at h1
    simp at h2
    exact h1

theorem mapM_known {names : List String} (h : ∀ n ∈ names, Spec.Known n) : ∃ props, names.mapM requiredSplineProperties = some props ∧
    List.Forall₂ (fun n l => requiredSplineProperties n = some l) names props := by
  induction names with
  | nil => exact ⟨[], rfl, .nil⟩
  | cons n names ih =>
    obtain ⟨l, hl⟩ := (required_iff n).2 (h n (by simp))
    obtain ⟨props, hp, hf⟩ := ih fun m hm => h m (by simp [hm])
    exact ⟨l :: props, by simp [List.mapM_cons, hl, hp], .cons hl hf⟩

theorem mapM_unknown {names : List String} (h : ∃ n ∈ names, ¬Spec.Known n) : names.mapM requiredSplineProperties = none := by
  induction names with
  | nil => obtain ⟨n, hn, -⟩ := h; simp at hn
  | cons n names ih =>
    obtain ⟨m, hm, hk⟩ := h
    by_cases hn : Spec.Known n
    · obtain ⟨l, hl⟩ := (required_iff n).2 hn
      have : m ∈ names := by
        rcases List.mem_cons.1 hm with rfl | hm
        · exact absurd hn hk
        · exact hm
      simp [List.mapM_cons, hl, ih ⟨m, this, hk⟩]
    · simp [List.mapM_cons, required_none n hn]

theorem mem_foldl_union (props : List (List String)) (acc : Finset String) (p : String) : p ∈ props.foldl (fun acc p => acc ∪ p.toFinset) acc ↔ p ∈ acc ∨ ∃ l ∈ props, p ∈ l := by
  induction props generalizing acc with
  | nil => simp
  | cons l props ih => rw [List.foldl_cons, ih]; simp [or_assoc]

theorem mem_foldl_inter (props : List (List String)) (acc : Finset String) (p : String) : p ∈ props.foldl (fun acc p => acc ∩ p.toFinset) acc ↔ p ∈ acc ∧ ∀ l ∈ props, p ∈ l := by
  induction props generalizing acc with
  | nil => simp
  | cons l props ih => rw [List.foldl_cons, ih]; simp [and_assoc]

theorem newSet_answers (s : State) (v : Finset String) {P : String → Prop} (h : ∀ p, p ∈ v ↔ P p) : Spec.AnswersSet (s.newSet v) P := ⟨_, v, rfl, by simp [State.newSet], h⟩

theorem newDict_answers (s : State) (v : Dict) {P : String → TileClass → Prop} (h : ∀ k c, (k, c) ∈ v ↔ P k c) : Spec.AnswersDict (s.newDict v) P := ⟨_, v, rfl, by simp [State.newDict], h⟩

theorem modify_other {α : Type} (l : List α) (f : α → α) {i j : ℕ} (h : i ≠ j) : (l.modify i f)[j]? = l[j]? := by
  rw [List.getElem?_modify]
  simp only [if_neg h]
  cases l[j]? <;> rfl

/-! ### invariants -/

/-- the dictionaries of the package are as after the import, and no caller holds one of them -/
def Kept (classes : List TileClass) (s : State) : Prop := (∀ i < 4, s.dicts[i]? = (summarize classes)[i]?) ∧ (∀ r ∈ s.handedDicts, 4 ≤ r) ∧ 4 ≤ s.dicts.length

theorem kept_newDict {classes : List TileClass} {s : State} (h : Kept classes s) (v : Dict) : Kept classes (s.newDict v).2 := by
  obtain ⟨h1, h2, h3⟩ := h
  refine ⟨fun i hi => ?_, ?_, ?_⟩
  · simp only [State.newDict]
    rw [List.getElem?_append_left (by omega)]
    exact h1 i hi
  · intro r hr
    simp only [State.newDict, List.mem_append, List.mem_singleton] at hr
    rcases hr with hr | rfl
    · exact h2 r hr
    · exact h3
  · simp only [State.newDict, List.length_append]
    omega

theorem kept_union {classes : List TileClass} {s : State} (h : Kept classes s) (names : List String) : Kept classes (union s names).2 := by
  unfold union
  split
  · exact h
  · split <;> exact h

theorem kept_step {classes : List TileClass} {s : State} (h : Kept classes s) (op : Op) : Kept classes (step s op).2 := by
  cases op with
  | of name => exact h
  | union names => exact kept_union h names
  | intersection names =>
    simp only [step, intersection]
    split
    · exact h
    · split <;> exact h
  | requiredProperties n =>
    simp only [step]
    split
    · exact h
    · exact kept_union h []
  | changeSet i f => simp only [step]; split <;> exact h
  | byDim a b =>
    simp only [step, byDim]
    split
    · exact h
    · exact kept_newDict h _
    · exact kept_newDict h _
  | everything => exact kept_newDict h _
  | get key => exact h
  | changeDict i f =>
    simp only [step]
    split
    · next ref href =>
      obtain ⟨h1, h2, h3⟩ := h
      have hr := h2 ref (List.mem_of_getElem? href)
      refine ⟨fun j hj => ?_, h2, by simpa using h3⟩
      exact (modify_other _ _ (by omega)).trans (h1 j hj)
    · exact h

theorem kept_run (classes : List TileClass) (ops : List Op) : Kept classes (run (initial classes) ops) := by
  have h : ∀ s, Kept classes s → Kept classes (run s ops) := by
    induction ops with
    | nil => exact fun s h => h
    | cons op ops ih => exact fun s h => ih _ (kept_step h op)
  exact h _ ⟨fun i hi => rfl, by simp [initial], by simp [initial, summarize]⟩

theorem run_snoc (s : State) (ops : List Op) (op : Op) : run s (ops ++ [op]) = (step (run s ops) op).2 := by simp [run]

theorem sets_step (s : State) (op : Op) (h : ∀ i f, op ≠ .changeSet i f) : ∃ more, (step s op).2.sets = s.sets ++ more := by
  have hu : ∀ names, ∃ more, (union s names).2.sets = s.sets ++ more := by
    intro names
    unfold union
    split
    · exact ⟨[], by simp [State.sameSet]⟩
    · split
      · exact ⟨[], by simp⟩
      · exact ⟨_, rfl⟩
  cases op with
  | of name => exact ⟨[], by simp [step]⟩
  | union names => exact hu names
  | intersection names =>
    simp only [step, intersection]
    split
    · exact ⟨[], by simp [State.sameSet]⟩
    · split
      · exact ⟨_, rfl⟩
      · exact ⟨[], by simp⟩
  | requiredProperties n =>
    simp only [step]
    split
    · exact ⟨[], by simp⟩
    · exact hu []
  | changeSet i f => exact absurd rfl (h i f)
  | byDim a b =>
    simp only [step, byDim]
    split <;> exact ⟨[], by simp [State.newDict]⟩
  | everything => exact ⟨[], by simp [step, State.newDict]⟩
  | get key => exact ⟨[], by simp [step]⟩
  | changeDict i f =>
    simp only [step]
    split <;> exact ⟨[], by simp⟩

theorem dicts_step (s : State) (op : Op) (h : ∀ i f, op ≠ .changeDict i f) : ∃ more, (step s op).2.dicts = s.dicts ++ more := by
  have hu : ∀ names, (union s names).2.dicts = s.dicts := by
    intro names
    unfold union
    split
    · rfl
    · split <;> rfl
  cases op with
  | of name => exact ⟨[], by simp [step]⟩
  | union names => exact ⟨[], by rw [step, hu]; simp⟩
  | intersection names =>
    simp only [step, intersection]
    split
    · exact ⟨[], by simp [State.sameSet]⟩
    · split <;> exact ⟨[], by simp [State.newSet]⟩
  | requiredProperties n =>
    simp only [step]
    split
    · exact ⟨[], by simp⟩
    · exact ⟨[], by rw [hu]; simp⟩
  | changeSet i f => simp only [step]; split <;> exact ⟨[], by simp⟩
  | byDim a b =>
    simp only [step, byDim]
    split
    · exact ⟨[], by simp⟩
    · exact ⟨_, rfl⟩
    · exact ⟨_, rfl⟩
  | everything => exact ⟨_, rfl⟩
  | get key => exact ⟨[], by simp [step]⟩
  | changeDict i f => exact absurd rfl (h i f)

theorem sets_two (classes : List TileClass) (ops : List Op) : 2 ≤ (run (initial classes) ops).sets.length := by
  induction ops using List.reverseRecOn with
  | nil => simp [run, initial]
  | append_singleton ops op ih =>
    rw [run_snoc]
    by_cases h : ∃ i f, op = .changeSet i f
    · obtain ⟨i, f, rfl⟩ := h
      simp only [step]
      split
      · simpa using ih
      · exact ih
    · obtain ⟨more, hm⟩ := sets_step (run (initial classes) ops) op fun i f hif => h ⟨i, f, hif⟩
      rw [hm, List.length_append]
      omega

theorem careful_sets (classes : List TileClass) (ops : List Op) (h : Spec.Careful classes ops) :
    (run (initial classes) ops).sets[0]? = some unionAll ∧ (run (initial classes) ops).sets[1]? = some intersectionAll := by
  induction ops using List.reverseRecOn with
  | nil => exact ⟨rfl, rfl⟩
  | append_singleton ops op ih =>
    have h' : Spec.Careful classes ops := fun pre i f post e => h pre i f (post ++ [op]) (by simp [e])
    obtain ⟨h0, h1⟩ := ih h'
    rw [run_snoc]
    by_cases hop : ∃ i f, op = .changeSet i f
    · obtain ⟨i, f, rfl⟩ := hop
      simp only [step]
      split
      · next ref href =>
        obtain ⟨hu, hi⟩ := h ops i f [] rfl ref href
        have hr0 : ref ≠ 0 := by rintro rfl; exact hu _ rfl
        have hr1 : ref ≠ 1 := by rintro rfl; exact hi _ rfl
        exact ⟨(modify_other _ _ hr0).trans h0, (modify_other _ _ hr1).trans h1⟩
      · exact ⟨h0, h1⟩
    · obtain ⟨more, hm⟩ := sets_step (run (initial classes) ops) op fun i f hif => hop ⟨i, f, hif⟩
      have h2 := sets_two classes ops
      rw [hm, List.getElem?_append_left (by omega), List.getElem?_append_left (by omega)]
      exact ⟨h0, h1⟩

/-! ### Theorems -/

/-- C134: the required properties of a kind of spline, after every history. -/
theorem of_answer (classes : List TileClass) (ops : List Op) (name : String) :
    (Spec.Known name → ∃ l, (step (run (initial classes) ops) (.of name)).1 = .tuple l ∧ ∀ p, p ∈ l ↔ Spec.Needs name p) ∧
    (¬Spec.Known name → (step (run (initial classes) ops) (.of name)).1 = .error) := by
  constructor
  · intro h
    obtain ⟨l, hl⟩ := (required_iff name).2 h
    exact ⟨l, by simp [step, hl], mem_required hl⟩
  · intro h
    simp [step, required_none name h]

/-- C134: the properties some of the given kinds need, after every history. -/
theorem union_answer (classes : List TileClass) (ops : List Op) (names : List String) (hne : names ≠ []) :
    ((∀ n ∈ names, Spec.Known n) → Spec.AnswersSet (step (run (initial classes) ops) (.union names)) fun p => ∃ n ∈ names, Spec.Needs n p) ∧
    ((∃ n ∈ names, ¬Spec.Known n) → (step (run (initial classes) ops) (.union names)).1 = .error) := by
  have he : names.isEmpty = false := by simpa using hne
  constructor
  · intro h
    obtain ⟨props, hp, hf⟩ := mapM_known h
    simp only [step, union, he, hp]
    refine newSet_answers _ _ fun p => ?_
    rw [mem_foldl_union]
    simp only [Finset.notMem_empty, false_or]
    constructor
    · rintro ⟨l, hl, hpl⟩
      obtain ⟨i, hi, rfl⟩ := List.getElem_of_mem hl
      have hi' : i < names.length := hf.length_eq ▸ hi
      have := (List.forall₂_iff_get.1 hf).2 i hi' hi
      exact ⟨names[i], List.getElem_mem _, (mem_required this p).1 hpl⟩
    · rintro ⟨n, hn, hnp⟩
      obtain ⟨i, hi, rfl⟩ := List.getElem_of_mem hn
      have hi' : i < props.length := hf.length_eq ▸ hi
      have := (List.forall₂_iff_get.1 hf).2 i hi hi'
      exact ⟨props[i], List.getElem_mem _, (mem_required this p).2 hnp⟩
  · intro h
    simp [step, union, he, mapM_unknown h]

/-- C134: the properties all of the given kinds need, after every history. -/
theorem intersection_answer (classes : List TileClass) (ops : List Op) (names : List String) (hne : names ≠ []) :
    ((∀ n ∈ names, Spec.Known n) → Spec.AnswersSet (step (run (initial classes) ops) (.intersection names)) fun p => ∀ n ∈ names, Spec.Needs n p) ∧
    ((∃ n ∈ names, ¬Spec.Known n) → (step (run (initial classes) ops) (.intersection names)).1 = .error) := by
  obtain ⟨init, last, rfl⟩ : ∃ init last, names = init ++ [last] := ⟨names.dropLast, names.getLast hne, (List.dropLast_append_getLast hne).symm⟩
  have he : (init ++ [last]).isEmpty = false := by simp
  have e1 : (init ++ [last]).getLastD "" = last := by simp
  have e2 : (init ++ [last]).dropLast = init := by simp
  constructor
  · intro h
    obtain ⟨l, hl⟩ := (required_iff last).2 (h last (by simp))
    obtain ⟨props, hp, hf⟩ := mapM_known fun n hn => h n (List.mem_append_left _ hn)
    simp only [step, intersection, he, e1, e2, hl, hp]
    refine newSet_answers _ _ fun p => ?_
    rw [mem_foldl_inter, List.mem_toFinset, mem_required hl]
    constructor
    · rintro ⟨h1, h2⟩ n hn
      rcases List.mem_append.1 hn with hn | hn
      · obtain ⟨i, hi, rfl⟩ := List.getElem_of_mem hn
        have hi' : i < props.length := hf.length_eq ▸ hi
        have := (List.forall₂_iff_get.1 hf).2 i hi hi'
        exact (mem_required this p).1 (h2 _ (List.getElem_mem _))
      · rw [List.mem_singleton] at hn
        exact hn ▸ h1
    · intro h1
      refine ⟨h1 last (by simp), fun q hq => ?_⟩
      obtain ⟨i, hi, rfl⟩ := List.getElem_of_mem hq
      have hi' : i < init.length := hf.length_eq ▸ hi
      have := (List.forall₂_iff_get.1 hf).2 i hi' hi
      exact (mem_required this p).2 (h1 _ (by simp))
  · rintro ⟨n, hn, hk⟩
    simp only [step, intersection, he, e1, e2]
    rcases List.mem_append.1 hn with hn | hn
    · rw [mapM_unknown ⟨n, hn, hk⟩]
      cases requiredSplineProperties last <;> rfl
    · rw [List.mem_singleton] at hn
      rw [required_none last (hn ▸ hk)]
      rfl

/-- C134: without arguments the answer is about all kinds, if no caller has changed an earlier answer to such a call. The required properties of a spline of another class, for which there is no entry,
are those of all kinds. -/
theorem all_kinds_partial (classes : List TileClass) (ops : List Op) (h : Spec.Careful classes ops) :
    (Spec.AnswersSet (step (run (initial classes) ops) (.union [])) fun p => ∃ n, Spec.Needs n p) ∧
    (Spec.AnswersSet (step (run (initial classes) ops) (.intersection [])) fun p => ∀ n, Spec.Known n → Spec.Needs n p) ∧
    ∀ name, ¬Spec.Known name → Spec.AnswersSet (step (run (initial classes) ops) (.requiredProperties name)) fun p => ∃ n, Spec.Needs n p := by
  obtain ⟨h0, h1⟩ := careful_sets classes ops h
  have hu : Spec.AnswersSet (union (run (initial classes) ops) []) fun p => ∃ n, Spec.Needs n p := ⟨0, unionAll, rfl, h0, mem_unionAll⟩
  refine ⟨hu, ⟨1, intersectionAll, rfl, h1, mem_intersectionAll⟩, fun name hn => ?_⟩
  simp only [step, required_none name hn]
  exact hu

/-- C134 is false for calls without arguments: after every history, a caller can change the answer to `union()`, and from then on this is the answer, also for the required properties of splines of other
classes; the same holds for `intersection()`. -/
theorem all_kinds_violates (classes : List TileClass) (ops : List Op) (v : Finset String) :
    (∃ i f, (Spec.AnswersSet (step (run (initial classes) (ops ++ [.union [], .changeSet i f])) (.union [])) fun p => p ∈ v) ∧
      ∀ name, ¬Spec.Known name → Spec.AnswersSet (step (run (initial classes) (ops ++ [.union [], .changeSet i f])) (.requiredProperties name)) fun p => p ∈ v) ∧
    ∃ i f, Spec.AnswersSet (step (run (initial classes) (ops ++ [.intersection [], .changeSet i f])) (.intersection [])) fun p => p ∈ v := by
  have h2 := sets_two classes ops
  have key : ∀ (op : Op) (r : ℕ), r < 2 → step (run (initial classes) ops) op = (run (initial classes) ops).sameSet r →
      (run (initial classes) (ops ++ [op, .changeSet (run (initial classes) ops).handedSets.length fun _ => v])).sets[r]? = some v := by
    intro op r hr hop
    rw [show ops ++ [op, .changeSet (run (initial classes) ops).handedSets.length fun _ => v] = (ops ++ [op]) ++ [.changeSet (run (initial classes) ops).handedSets.length fun _ => v] by simp,
      run_snoc, run_snoc, hop]
    simp only [State.sameSet, step, List.getElem?_append_right (le_refl _), Nat.sub_self, List.getElem?_cons_zero, List.getElem?_modify, if_true]
    rw [List.getElem?_eq_getElem (by omega)]
    rfl
  have k0 := key (.union []) 0 (by omega) rfl
  have k1 := key (.intersection []) 1 (by omega) rfl
  refine ⟨⟨_, _, ⟨0, v, rfl, k0, fun _ => Iff.rfl⟩, fun name hn => ?_⟩, ⟨_, _, ⟨1, v, rfl, k1, fun _ => Iff.rfl⟩⟩⟩
  simp only [step, required_none name hn]
  exact ⟨0, v, rfl, k0, fun _ => Iff.rfl⟩

/-- C134: tiles by their dimensions, after every history. Dimensions other than 1, 2 and 3 are errors. -/
theorem by_dim_answer (classes : List TileClass) (ops : List Op) (paraDim dim : Option ℕ) :
    ((∀ d, dim = some d → 1 ≤ d ∧ d ≤ 3) → Spec.AnswersDict (step (run (initial classes) ops) (.byDim paraDim dim)) fun k c =>
      c ∈ classes ∧ k = c.name ∧ (∀ n, paraDim = some n → c.paraDim = n) ∧ ∀ d, dim = some d → c.dim = d) ∧
    ((∃ d, dim = some d ∧ ¬(1 ≤ d ∧ d ≤ 3)) → (step (run (initial classes) ops) (.byDim paraDim dim)).1 = .error) := by
  obtain ⟨h1, -, -⟩ := kept_run classes ops
  constructor
  · intro hd
    obtain ⟨table, hpool, hmem⟩ : ∃ table, pool (run (initial classes) ops) dim = some table ∧
        ∀ k c, (k, c) ∈ table ↔ c ∈ classes ∧ k = c.name ∧ ∀ d, dim = some d → c.dim = d := by
      have hall : ∀ k c, (k, c) ∈ classes.map (fun c => (c.name, c)) ↔ c ∈ classes ∧ k = c.name := by
        intro k c
        simp only [List.mem_map, Prod.mk.injEq]
        constructor
        · rintro ⟨a, ha, rfl, rfl⟩; exact ⟨ha, rfl⟩
        · rintro ⟨ha, rfl⟩; exact ⟨c, ha, rfl, rfl⟩
      cases dim with
      | none => exact ⟨_, h1 0 (by omega), fun k c => by simp only [hall]; simp⟩
      | some d =>
        have hd' := hd d rfl
        refine ⟨(classes.map fun c => (c.name, c)).filter fun e => e.2.dim == d, ?_, fun k c => ?_⟩
        · rw [pool, if_pos hd', h1 d (by omega)]
          rcases (by omega : d = 1 ∨ d = 2 ∨ d = 3) with rfl | rfl | rfl <;> rfl
        · rw [List.mem_filter, hall]
          simp [and_assoc]
    simp only [step, byDim, hpool]
    cases paraDim with
    | none => exact newDict_answers _ _ fun k c => by rw [hmem]; simp
    | some n => exact newDict_answers _ _ fun k c => by rw [List.mem_filter, hmem]; simp; tauto
  · rintro ⟨d, rfl, hd⟩
    simp only [step, byDim, pool, if_neg hd]

/-- C134: all tiles, after every history. -/
theorem everything_answer (classes : List TileClass) (ops : List Op) :
    Spec.AnswersDict (step (run (initial classes) ops) .everything) fun k c => c ∈ classes ∧ k = c.name := by
  obtain ⟨h1, -, -⟩ := kept_run classes ops
  refine newDict_answers _ _ fun k c => ?_
  rw [List.getD_eq_getElem?_getD, h1 0 (by omega)]
  simp only [summarize, List.getElem?_cons_zero, Option.getD_some, List.mem_map, Prod.mk.injEq]
  constructor
  · rintro ⟨a, ha, rfl, rfl⟩; exact ⟨ha, rfl⟩
  · rintro ⟨ha, rfl⟩; exact ⟨c, ha, rfl, rfl⟩

/-- C134: a tile by its name, after every history; names are different. -/
theorem get_answer (classes : List TileClass) (hd : (classes.map (·.name)).Nodup) (ops : List Op) (key : String) :
    (∀ c ∈ classes, c.name = key → (step (run (initial classes) ops) (.get key)).1 = .tile c) ∧
    ((∀ c ∈ classes, c.name ≠ key) → (step (run (initial classes) ops) (.get key)).1 = .error) := by
  obtain ⟨h1, -, -⟩ := kept_run classes ops
  have hd0 : (run (initial classes) ops).dicts.getD 0 [] = classes.map fun c => (c.name, c) := by
    rw [List.getD_eq_getElem?_getD, h1 0 (by omega)]; rfl
  simp only [step, hd0]
  constructor
  · intro c hc hk
    have : (classes.map fun c => (c.name, c)).find? (fun e => e.1 == key) = some (c.name, c) := by
      clear hd0 h1
      induction classes with
      | nil => simp at hc
      | cons a classes ih =>
        simp only [List.map_cons, List.nodup_cons, List.mem_map, not_exists, not_and] at hd
        rcases List.mem_cons.1 hc with rfl | hc
        · simp [hk]
        · have hne : a.name ≠ key := fun h => hd.1 c hc (hk.trans h.symm)
          rw [List.map_cons, List.find?_cons_of_neg (by simpa using hne)]
          exact ih hd.2 hc
    rw [this]
  · intro h
    have : (classes.map fun c => (c.name, c)).find? (fun e => e.1 == key) = none := by
      rw [List.find?_eq_none]
      intro e he
      obtain ⟨c, hc, rfl⟩ := List.mem_map.1 he
      simpa using h c hc
    rw [this]

/-- C134: what a caller holds is changed by nobody else: functions of the package leave all sets and dictionaries that exist as they are. -/
theorem answers_stay (s : State) (op : Op) :
    ((∀ i f, op ≠ .changeSet i f) → ∀ (ref : ℕ) v, s.sets[ref]? = some v → (step s op).2.sets[ref]? = some v) ∧
    ((∀ i f, op ≠ .changeDict i f) → ∀ (ref : ℕ) v, s.dicts[ref]? = some v → (step s op).2.dicts[ref]? = some v) := by
  constructor
  · intro h ref v hv
    obtain ⟨more, hm⟩ := sets_step s op h
    rw [hm, List.getElem?_append_left (List.getElem?_eq_some_iff.1 hv).1, hv]
  · intro h ref v hv
    obtain ⟨more, hm⟩ := dicts_step s op h
    rw [hm, List.getElem?_append_left (List.getElem?_eq_some_iff.1 hv).1, hv]

/-! ### Concrete cases -/

-- a history that is careful, although answers are changed
example : Spec.Careful packageTiles [.union [], .union ["Bezier"], .changeSet 1 fun _ => ∅, .everything, .changeDict 0 fun _ => []] := by
  intro pre i f post h ref href
  rcases pre with _ | ⟨a, _ | ⟨b, _ | ⟨c, _ | ⟨d, _ | ⟨e, pre⟩⟩⟩⟩⟩
  all_goals simp only [List.nil_append, List.cons_append, List.cons.injEq, reduceCtorEq, false_and, and_false] at h
  · obtain ⟨rfl, rfl, hop, -⟩ := h
    obtain ⟨rfl, -⟩ := Op.changeSet.inj hop
    have h2 : (run (initial packageTiles) [.union [], .union ["Bezier"]]).handedSets[1]? = some 2 := rfl
    rw [h2] at href
    cases href
    constructor
    · intro t ht
      have : Answer.set 0 = Answer.set 2 := congrArg Prod.fst ht
      simp at this
    · intro t ht
      have : Answer.set 1 = Answer.set 2 := congrArg Prod.fst ht
      simp at this
  · simp at h

-- the tiles of the package have different names; surfaces in the plane are found after a caller has emptied the dictionary of all tiles they were given
example : (packageTiles.map (·.name)).Nodup ∧ Spec.AnswersDict (step (run (initial packageTiles) [.everything, .changeDict 0 fun _ => []]) (.byDim (some 2) (some 2))) fun k c =>
    c ∈ packageTiles ∧ k = c.name ∧ (∀ n, some 2 = some n → c.paraDim = n) ∧ ∀ d, some 2 = some d → c.dim = d :=
  ⟨by decide, (by_dim_answer packageTiles _ (some 2) (some 2)).1 (by rintro d ⟨⟩; omega)⟩

end Splinepy.Catalogue
