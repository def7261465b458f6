import Verif.Model.Arrows
import Mathlib.Algebra.Order.Ring.Rat
import Mathlib.Tactic.Linarith

/-!
C140: arrows at given places start at the points of the spline there and show the value of the data there.
-/
namespace Splinepy.Arrows
open Splinepy.Index (Spline)
open Splinepy.Spec (Direction directions)

variable {K V : Type} [Field K] [LinearOrder K] [IsStrictOrderedRing K]

/-! ### Specification -/

/-- a place in the domain of the spline, up to the tolerance -/
def Spec.Inside (tol : K) (s : Spline K V) (u : List K) : Prop :=
  u.length = (directions s).length ∧ ∀ (k : ℕ) (d : Direction K), (directions s)[k]? = some d → d.lower - tol ≤ u.getD k 0 ∧ u.getD k 0 ≤ d.upper + tol

/-- the rows of an array have the same length -/
def Spec.Rectangular (rows : List (List K)) : Prop := ∀ q ∈ rows, ∀ r ∈ rows, q.length = r.length

/-- Arrows at `places`: one for each place in order, starting at the point of the spline there, with the given value. -/
def Spec.ArrowsAt (evaluate : Spline K V → List K → V) (s : Spline K V) (places : List (List K)) (value : List K → V) (arrows : List V × List V) : Prop :=
  arrows.1.length = places.length ∧ arrows.2.length = places.length ∧
    ∀ (i : ℕ) (u : List K), places[i]? = some u → arrows.1[i]? = some (evaluate s u) ∧ arrows.2[i]? = some (value u)

/-! ### Proof -/

theorem column_min (first : List K) (rest : List (List K)) (k : ℕ) (b : K) : b ≤ column min first rest k ↔ ∀ q ∈ first :: rest, b ≤ q.getD k 0 := by
  unfold column
  have : ∀ m : K, b ≤ rest.foldl (fun m r => min m (r.getD k 0)) m ↔ b ≤ m ∧ ∀ q ∈ rest, b ≤ q.getD k 0 := by
    induction rest with
    | nil => simp
    | cons r rest ih =>
      intro m
      rw [List.foldl_cons, ih, le_min_iff]
      simp only [List.mem_cons, forall_eq_or_imp, and_assoc]
  rw [this]
  simp only [List.mem_cons, forall_eq_or_imp]

theorem column_max (first : List K) (rest : List (List K)) (k : ℕ) (b : K) : column max first rest k ≤ b ↔ ∀ q ∈ first :: rest, q.getD k 0 ≤ b := by
  unfold column
  have : ∀ m : K, rest.foldl (fun m r => max m (r.getD k 0)) m ≤ b ↔ m ≤ b ∧ ∀ q ∈ rest, q.getD k 0 ≤ b := by
    induction rest with
    | nil => simp
    | cons r rest ih =>
      intro m
      rw [List.foldl_cons, ih, max_le_iff]
      simp only [List.mem_cons, forall_eq_or_imp, and_assoc]
  rw [this]
  simp only [List.mem_cons, forall_eq_or_imp]

/-- C140: places are accepted exactly if there are some and all are inside of the domain. -/
theorem check_iff (tol : K) (s : Spline K V) (places : List (List K)) (hr : Spec.Rectangular places) :
    check tol s places = true ↔ places ≠ [] ∧ ∀ u ∈ places, Spec.Inside tol s u := by
  cases places with
  | nil => simp [check]
  | cons first rest =>
    unfold check
    simp only
    split
    · rename_i h
      refine ⟨fun h => by simp at h, fun h' => absurd (h'.2 first (by simp)).1 h⟩
    · rename_i h
      rw [not_not] at h
      have hlow : (List.range (directions s).length).any (fun k => decide (column min first rest k - ((directions s).map (·.lower)).getD k 0 + tol < 0)) = false ↔
          ∀ u ∈ first :: rest, ∀ (k : ℕ) (d : Direction K), (directions s)[k]? = some d → d.lower - tol ≤ u.getD k 0 := by
        rw [List.any_eq_false]
        constructor
        · intro h1 u hu k d hd
          have hk := (List.getElem?_eq_some_iff.1 hd).1
          have := h1 k (List.mem_range.2 hk)
          rw [decide_eq_true_eq, not_lt, List.getD_eq_getElem?_getD, List.getElem?_map, hd, Option.map_some, Option.getD_some] at this
          exact (column_min first rest k (d.lower - tol)).1 (by linarith) u hu
        · intro h1 k hk
          rw [List.mem_range] at hk
          have hd := List.getElem?_eq_getElem hk
          rw [decide_eq_true_eq, not_lt, List.getD_eq_getElem?_getD, List.getElem?_map, hd, Option.map_some, Option.getD_some]
          have := (column_min first rest k ((directions s)[k].lower - tol)).2 fun u hu => h1 u hu k _ hd
          linarith
      have hup : (List.range (directions s).length).any (fun k => decide (0 < column max first rest k - ((directions s).map (·.upper)).getD k 0 - tol)) = false ↔
          ∀ u ∈ first :: rest, ∀ (k : ℕ) (d : Direction K), (directions s)[k]? = some d → u.getD k 0 ≤ d.upper + tol := by
        rw [List.any_eq_false]
        constructor
        · intro h1 u hu k d hd
          have hk := (List.getElem?_eq_some_iff.1 hd).1
          have := h1 k (List.mem_range.2 hk)
          rw [decide_eq_true_eq, not_lt, List.getD_eq_getElem?_getD, List.getElem?_map, hd, Option.map_some, Option.getD_some] at this
          exact (column_max first rest k (d.upper + tol)).1 (by linarith) u hu
        · intro h1 k hk
          rw [List.mem_range] at hk
          have hd := List.getElem?_eq_getElem hk
          rw [decide_eq_true_eq, not_lt, List.getD_eq_getElem?_getD, List.getElem?_map, hd, Option.map_some, Option.getD_some]
          have := (column_max first rest k ((directions s)[k].upper + tol)).2 fun u hu => h1 u hu k _ hd
          linarith
      rw [Bool.not_eq_true', Bool.or_eq_false_iff, hlow, hup]
      constructor
      · rintro ⟨h1, h2⟩
        exact ⟨by simp, fun u hu => ⟨(hr u hu first (by simp)).trans h, fun k d hd => ⟨h1 u hu k d hd, h2 u hu k d hd⟩⟩⟩
      · rintro ⟨-, h'⟩
        exact ⟨fun u hu k d hd => ((h' u hu).2 k d hd).1, fun u hu k d hd => ((h' u hu).2 k d hd).2⟩

theorem evaluateAll_of_inside (evaluate : Spline K V → List K → V) {tol : K} {s d : Spline K V} {places : List (List K)} (hd : (directions d).length = (directions s).length)
    (h : ∀ u ∈ places, Spec.Inside tol s u) : evaluateAll evaluate d places = some (places.map (evaluate d)) :=
  if_pos fun u hu => (h u hu).1.trans hd.symm

theorem arrowsAt_map (evaluate : Spline K V → List K → V) (s : Spline K V) (places : List (List K)) (value : List K → V) :
    Spec.ArrowsAt evaluate s places value (places.map (evaluate s), places.map value) :=
  ⟨by simp, by simp, fun i u hu => by simp [hu]⟩

/-! ### Results -/

/-- C140: the conditions for an adaptor. Without a function: splines always; with places also objects with `evaluate`, and sequences with one entry for each place. With a function everything. -/
theorem construct_iff (data : Data K V) (function : Option (Function K V)) (locations : Option (List (List K))) :
    (construct data function locations = some ⟨data, function, locations⟩ ∨ construct data function locations = none) ∧
      ((construct data function locations).isSome ↔ function.isSome ∨ (∃ d, data = .spline d) ∨
        ∃ ls, locations = some ls ∧ ((∃ g, data = .evaluates g) ∨ ∃ vs : List V, data = .sequence vs ∧ ls.length = vs.length)) := by
  unfold construct
  rcases function with _ | f <;> rcases locations with _ | ls <;> rcases data with d | g | vs | _ <;> simp
  · by_cases h : ls.length = vs.length <;> simp [h]

/-- C140 for a spline as data, at fixed places or at an array of places of the option `arrow_data_on`: if the places are inside of the domain, each arrow starts at the point of the spline at its place and is the value of
the data there. In all other cases the call raises. -/
theorem spline_arrows (evaluate : Spline K V → List K → V) (tol : K) (s d : Spline K V) (hd : (directions d).length = (directions s).length) (places : List (List K)) (hr : Spec.Rectangular places)
    (a : Adaptor K V) (on : Option (Places K))
    (h : (construct (.spline d) none (some places) = some a ∧ on = none) ∨ (construct (.spline d) none none = some a ∧ on = some (.array places))) :
    ((places ≠ [] ∧ ∀ u ∈ places, Spec.Inside tol s u) → ∃ arrows, sampleArrows evaluate tol s a on = some (some arrows) ∧ Spec.ArrowsAt evaluate s places (evaluate d) arrows) ∧
      (¬(places ≠ [] ∧ ∀ u ∈ places, Spec.Inside tol s u) → sampleArrows evaluate tol s a on = none) := by
  have e : sampleArrows evaluate tol s a on =
      if check tol s places then (evaluateAll evaluate d places).bind fun vs => (evaluateAll evaluate s places).map fun ps => some (ps, vs) else none := by
    rcases h with ⟨h, rfl⟩ | ⟨h, rfl⟩ <;> simp [construct] at h <;> subst h <;> rfl
  rw [e, ← check_iff tol s places hr]
  refine ⟨fun hc => ⟨_, ?_, arrowsAt_map evaluate s places (evaluate d)⟩, fun hc => if_neg hc⟩
  have hi := ((check_iff tol s places hr).1 hc).2
  rw [if_pos hc, evaluateAll_of_inside evaluate hd hi, evaluateAll_of_inside evaluate rfl hi]
  rfl

/-- C140 for a sequence of values at fixed places inside of the domain: each arrow starts at the point of the spline at its place, and the values are those of the sequence in order. -/
theorem sequence_arrows (evaluate : Spline K V → List K → V) (tol : K) (s : Spline K V) (vs : List V) (places : List (List K)) (hr : Spec.Rectangular places) (a : Adaptor K V)
    (h : construct (.sequence vs) none (some places) = some a) (hne : places ≠ []) (hi : ∀ u ∈ places, Spec.Inside tol s u) :
    vs.length = places.length ∧ sampleArrows evaluate tol s a none = some (some (places.map (evaluate s), vs)) := by
  have hl : places.length = vs.length := by
    by_contra hl
    simp [construct, hl] at h
  simp [construct, hl] at h
  subst h
  refine ⟨hl.symm, ?_⟩
  have hc := (check_iff tol s places hr).2 ⟨hne, hi⟩
  simp only [sampleArrows, values, hc, if_true, evaluateAll_of_inside evaluate rfl hi, Option.bind_some, Option.map_some]

/-- C140 for a function with data: at fixed places it may have any parameters, at places of `arrow_data_on` its second parameter has to be called `on`. -/
theorem function_arrows_partial (evaluate : Spline K V → List K → V) (tol : K) (s : Spline K V) (data : Data K V) (f : Function K V) (g : List K → V) (places : List (List K)) (hr : Spec.Rectangular places)
    (hf : f.both places = .returns (places.map g)) (a : Adaptor K V) (on : Option (Places K))
    (h : (construct data (some f) (some places) = some a ∧ on = none) ∨ (construct data (some f) none = some a ∧ on = some (.array places) ∧ f.argument = "on"))
    (hne : places ≠ []) (hi : ∀ u ∈ places, Spec.Inside tol s u) :
    ∃ arrows, sampleArrows evaluate tol s a on = some (some arrows) ∧ Spec.ArrowsAt evaluate s places g arrows := by
  have hc := (check_iff tol s places hr).2 ⟨hne, hi⟩
  refine ⟨_, ?_, arrowsAt_map evaluate s places g⟩
  rcases h with ⟨h, rfl⟩ | ⟨h, rfl, hon⟩
  · simp [construct] at h
    subst h
    simp only [sampleArrows, values, hc, if_true, hf, Call.result, evaluateAll_of_inside evaluate rfl hi, Option.bind_some, Option.map_some]
  · simp [construct] at h
    subst h
    simp only [sampleArrows, values, hc, if_true, hf, hon, Call.result, evaluateAll_of_inside evaluate rfl hi, Option.bind_some, Option.map_some, Option.isSome_none, Bool.false_eq_true, if_false]

/-- C140: data with fixed places can not be shown at other places. -/
theorem two_places_raise (evaluate : Spline K V → List K → V) (tol : K) (s : Spline K V) (a : Adaptor K V) (ls : List (List K)) (h : a.locations = some ls) (on : Places K) :
    sampleArrows evaluate tol s a (some on) = none ∧ ∀ queries, values evaluate a (some queries) = none := by
  refine ⟨by simp only [sampleArrows, h], fun queries => ?_⟩
  simp [values, h]

/-- C140 fails for places given as a list or a tuple, which the option `arrow_data_on` accepts: showing the spline always raises. -/
theorem list_places_violates (evaluate : Spline K V → List K → V) (tol : K) (s : Spline K V) (a : Adaptor K V) (rows : List (List K)) :
    sampleArrows evaluate tol s a (some (.sequence rows)) = none := by
  cases h : a.locations <;> simp only [sampleArrows, h]

/-- C140 fails for functions with the documented parameters `function(data, queries)` and places of `arrow_data_on`: the call raises. -/
theorem argument_name_violates (evaluate : Spline K V → List K → V) (tol : K) (s : Spline K V) (a : Adaptor K V) (f : Function K V) (hf : a.function = some f) (ha : f.argument ≠ "on") (on : Places K) :
    sampleArrows evaluate tol s a (some on) = none := by
  cases h : a.locations with
  | some ls => simp only [sampleArrows, h]
  | none =>
    cases on with
    | sequence rows => simp only [sampleArrows, h]
    | array rows =>
      simp only [sampleArrows, values, h, hf, ha, if_false, Option.isSome_none, Bool.false_eq_true, Option.bind_none, ite_self]

/-- C140 fails if the function raises a TypeError at the given places: it is called once more without the places, and what it returns then is shown. -/
theorem type_error_violates (evaluate : Spline K V → List K → V) (tol : K) (s : Spline K V) (data : Data K V) (f : Function K V) (places : List (List K)) (hr : Spec.Rectangular places) (others : List V)
    (hf : f.both places = .typeError) (ho : f.alone = .returns others) (a : Adaptor K V) (h : construct data (some f) (some places) = some a) (hne : places ≠ []) (hi : ∀ u ∈ places, Spec.Inside tol s u) :
    sampleArrows evaluate tol s a none = some (some (places.map (evaluate s), others)) := by
  have hc := (check_iff tol s places hr).2 ⟨hne, hi⟩
  simp [construct] at h
  subst h
  simp only [sampleArrows, values, hc, if_true, hf, ho, Call.result, evaluateAll_of_inside evaluate rfl hi, Option.bind_some, Option.map_some]

theorem mapM_evaluate (evaluate : Spline K V → List K → V) (patches : List (Spline K V)) (places : List (List K)) (h : ∀ s ∈ patches, ∀ u ∈ places, u.length = (directions s).length) :
    (patches.mapM fun s => evaluateAll evaluate s places) = some (patches.map fun s => places.map (evaluate s)) := by
  induction patches with
  | nil => rfl
  | cons s patches ih =>
    rw [List.mapM_cons, ih fun t ht => h t (by simp [ht]), evaluateAll, if_pos (h s (by simp))]
    rfl

/-- C140 for multipatches with a multipatch as data at fixed places: the places are taken in all patches, one patch after the other, and vertices and values belong together. -/
theorem multipatch_arrows (evaluate : Spline K V → List K → V) (pairs : List (Spline K V × Spline K V)) (places : List (List K))
    (h : ∀ p ∈ pairs, ∀ u ∈ places, u.length = (directions p.1).length ∧ u.length = (directions p.2).length) (a : Adaptor K V)
    (ha : construct (.evaluates (evaluatePatches evaluate (pairs.map (·.2)))) none (some places) = some a) :
    samplePatchArrows evaluate (pairs.map (·.1)) a =
      some (some (pairs.flatMap fun p => places.map (evaluate p.1), pairs.flatMap fun p => places.map (evaluate p.2))) := by
  simp [construct] at ha
  subst ha
  have h1 := mapM_evaluate evaluate (pairs.map (·.1)) places (by simpa using fun p q hp u hu => (h (p, q) hp u hu).1)
  have h2 := mapM_evaluate evaluate (pairs.map (·.2)) places (by simpa using fun q p hp u hu => (h (p, q) hp u hu).2)
  simp only [samplePatchArrows, values, evaluatePatches, h1, h2, Option.map_some, Option.bind_some, List.map_map, List.flatMap_def]
  rfl

/-- C140 fails for multipatches with two or more patches and a sequence of values, one for each place: the points of all patches are taken, more than there are values. -/
theorem multipatch_sequence_violates (evaluate : Spline K V → List K → V) (patches : List (Spline K V)) (h2 : 2 ≤ patches.length) (vs : List V) (places : List (List K)) (hne : places ≠ [])
    (h : ∀ s ∈ patches, ∀ u ∈ places, u.length = (directions s).length) (a : Adaptor K V) (ha : construct (.sequence vs) none (some places) = some a) :
    ∃ vertices, samplePatchArrows evaluate patches a = some (some (vertices, vs)) ∧ vs.length < vertices.length := by
  have hl : places.length = vs.length := by
    by_contra hl
    simp [construct, hl] at ha
  simp [construct, hl] at ha
  subst ha
  refine ⟨_, by simp only [samplePatchArrows, values, evaluatePatches, mapM_evaluate evaluate patches places h, Option.map_some, Option.bind_some]; rfl, ?_⟩
  rw [List.length_flatten, List.map_map, show (List.length ∘ fun s => places.map (evaluate s)) = fun _ => places.length from by funext s; simp, List.map_const', List.sum_replicate, nsmul_eq_mul, Nat.cast_id, ← hl]
  have : 0 < places.length := List.length_pos_iff.2 hne
  nlinarith

/-- Non-vacuity: a line and a quadratic Bezier curve as its data, at two places. -/
example : ∃ arrows, sampleArrows (K := ℚ) (V := List ℚ) (fun s u => s.controlPoints.headD [] ++ u) 0 ⟨[1], none, none, [[0], [1]]⟩ ⟨.spline ⟨[2], none, none, [[0], [1], [3]]⟩, none, some [[1 / 2], [1]]⟩ none = some (some arrows) ∧
    Spec.ArrowsAt (fun s u => s.controlPoints.headD [] ++ u) ⟨[1], none, none, [[0], [1]]⟩ [[1 / 2], [1]] (fun u => [0] ++ u) arrows :=
  (spline_arrows (K := ℚ) (V := List ℚ) (fun s u => s.controlPoints.headD [] ++ u) 0 ⟨[1], none, none, [[0], [1]]⟩ ⟨[2], none, none, [[0], [1], [3]]⟩ rfl [[1 / 2], [1]]
    (by intro q hq r hr; simp at hq hr; rcases hq with rfl | rfl <;> rcases hr with rfl | rfl <;> rfl) _ none (Or.inl ⟨rfl, rfl⟩)).1
    ⟨by simp, ((check_iff (K := ℚ) (V := List ℚ) 0 ⟨[1], none, none, [[0], [1]]⟩ [[1 / 2], [1]]
      (by intro q hq r hr; simp at hq hr; rcases hq with rfl | rfl <;> rcases hr with rfl | rfl <;> rfl)).1 (by decide +kernel)).2⟩

end Splinepy.Arrows
