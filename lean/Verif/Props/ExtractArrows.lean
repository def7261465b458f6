import Verif.Model.ExtractArrows

/-!
C155: `extract.arrow_data` gives the arrows of the named data.
-/
namespace Splinepy.ExtractArrows

variable {K N E : Type}

/-! ### Specification -/

/-- Places and values of the arrows: those at the given places, else those at the vertices of the sampled spline. -/
inductive Spec.Arrows (sampled : List (List K) × Option (List (List K))) (atPlaces : Option (Option (List (List K) × List (List K)))) : List (List K) → List (List K) → Prop
  | places {ps vs} : atPlaces = some (some (ps, vs)) → Spec.Arrows sampled atPlaces ps vs
  | sampled {vs} : atPlaces = some none → sampled.2 = some vs → Spec.Arrows sampled atPlaces sampled.1 vs

/-- The dimension of the values. -/
def Spec.width (vs : List (List K)) : ℕ := (vs.headD []).length

/-! ### Results -/

/-- C155: names without data raise; values whose dimension is not that of the spline come back as they are, at their places and under their name. -/
theorem mismatch_returned (asScalar : (String → Option (List (List K))) → Key → Option N) (fromData : Points K → List (List K) → Option K → N → Option E) (known : List String) (dim : ℕ) (scale : Option K)
    (sampled : List (List K) × Option (List (List K))) (atPlaces : Option (Option (List (List K) × List (List K)))) (name : String) :
    (name ∉ known → arrowData asScalar fromData known dim scale sampled atPlaces name = .raised) ∧
    ∀ ps vs, name ∈ known → Spec.Arrows sampled atPlaces ps vs → Spec.width vs ≠ dim →
      ∃ p, arrowData asScalar fromData known dim scale sampled atPlaces name = .points p ∧ p.vertices = ps ∧ p.data name = some vs ∧ ∀ other, other ≠ name → p.data other = none := by
  refine ⟨fun h => by simp [arrowData, h], fun ps vs hk h hd => ?_⟩
  unfold Spec.width at hd
  cases h with
  | places h => exact ⟨⟨ps, fun n => if n = name then some vs else none⟩, by simp [arrowData, hk, h, hd, -List.headD_eq_head?_getD], rfl, by simp, fun o ho => by simp [ho]⟩
  | sampled h hs => exact ⟨⟨sampled.1, fun n => if n = name then some vs else none⟩, by simp [arrowData, hk, h, hs, hd, -List.headD_eq_head?_getD], rfl, by simp, fun o ho => by simp [ho]⟩

/-- C155: edges that are returned are created from the places and the values of the named data, and with the scale that is set. Missing: that edges are returned, and the lengths used for
them, see `edges_violates` and `lengths_violates`. -/
theorem edges_partial {asScalar : (String → Option (List (List K))) → Key → Option N} {fromData : Points K → List (List K) → Option K → N → Option E} {known : List String} {dim : ℕ} {scale : Option K}
    {sampled : List (List K) × Option (List (List K))} {atPlaces : Option (Option (List (List K) × List (List K)))} {name : String} {e : E}
    (h : arrowData asScalar fromData known dim scale sampled atPlaces name = .edges e) :
    name ∈ known ∧ ∃ ps vs p norm, Spec.Arrows sampled atPlaces ps vs ∧ Spec.width vs = dim ∧ p.vertices = ps ∧ p.data name = some vs ∧ fromData p vs scale norm = some e := by
  unfold arrowData at h
  by_cases hk : name ∈ known
  · simp only [hk, not_true_eq_false, if_false] at h
    refine ⟨hk, ?_⟩
    cases ha : atPlaces with
    | none => rw [ha] at h; simp at h
    | some r =>
      rw [ha] at h
      cases r with
      | none =>
        cases hs : sampled.2 with
        | none => rw [hs] at h; simp at h
        | some vs =>
          rw [hs] at h
          simp only [Option.map_some, if_true] at h
          split at h
          · cases h
          · rename_i hd
            split at h
            · rename_i e' he
              obtain ⟨norm, -, hf⟩ := Option.bind_eq_some_iff.1 he
              cases h
              exact ⟨sampled.1, vs, _, norm, .sampled rfl hs, not_not.1 hd, rfl, by simp, hf⟩
            · cases h
      | some pv =>
        obtain ⟨ps, vs⟩ := pv
        simp only [if_true] at h
        split at h
        · cases h
        · rename_i hd
          split at h
          · rename_i e' he
            obtain ⟨norm, -, hf⟩ := Option.bind_eq_some_iff.1 he
            cases h
            exact ⟨ps, vs, _, norm, .places rfl, not_not.1 hd, rfl, by simp, hf⟩
          · cases h
  · simp [hk] at h

/-- C155: if the lengths of data that are not there cannot be asked for, then edges are never returned. -/
theorem edges_violates {asScalar : (String → Option (List (List K))) → Key → Option N} (ha : ∀ d k, (∀ n, k = .name n → d n = none) → asScalar d k = none)
    (fromData : Points K → List (List K) → Option K → N → Option E) (known : List String) (dim : ℕ) (scale : Option K) (sampled : List (List K) × Option (List (List K)))
    (atPlaces : Option (Option (List (List K) × List (List K)))) (name : String) (e : E) : arrowData asScalar fromData known dim scale sampled atPlaces name ≠ .edges e := by
  have h1 : ∀ d, asScalar d .absent = none := fun d => ha d _ (by simp)
  have h2 : ∀ d, asScalar d .vertices = none := fun d => ha d _ (by simp)
  unfold arrowData
  intro h
  split at h
  · cases h
  · cases atPlaces with
    | none => simp at h
    | some r =>
      cases r with
      | none =>
        cases hs : sampled.2 with
        | none => rw [hs] at h; simp at h
        | some vs =>
          rw [hs] at h
          simp only [Option.map_some, if_true, h1, Option.bind_none] at h
          split at h <;> cases h
      | some pv =>
        obtain ⟨ps, vs⟩ := pv
        simp only [if_true, h2, Option.bind_none] at h
        split at h <;> cases h

/-- C155: and if they can be asked for, the answer is not that for the named data: whatever lengths the named data have, the edges are the same. -/
theorem lengths_violates (asScalar asScalar' : (String → Option (List (List K))) → Key → Option N) (ha : ∀ d k, (∀ n, k ≠ .name n) → asScalar d k = asScalar' d k)
    (fromData : Points K → List (List K) → Option K → N → Option E) (known : List String) (dim : ℕ) (scale : Option K) (sampled : List (List K) × Option (List (List K)))
    (atPlaces : Option (Option (List (List K) × List (List K)))) (name : String) :
    arrowData asScalar fromData known dim scale sampled atPlaces name = arrowData asScalar' fromData known dim scale sampled atPlaces name := by
  have h1 : ∀ d, asScalar d .absent = asScalar' d .absent := fun d => ha d _ (by simp)
  have h2 : ∀ d, asScalar d .vertices = asScalar' d .vertices := fun d => ha d _ (by simp)
  unfold arrowData
  cases atPlaces with
  | none => rfl
  | some r =>
    cases r with
    | none => cases hs : sampled.2 <;> simp [h1]
    | some pv => simp [h2]

/-- two arrows in the plane, scaled by two: an `as_scalar` that answers for any key gives the edges, … -/
example : arrowData (fun _ _ => some ()) (fun p vs s _ => some (p.vertices.zip vs, s)) ["v"] 2 (some (2 : Int)) ([[0, 0], [1, 0]], some [[1, 2], [3, 4]]) (some none) "v" =
    .edges ([([0, 0], [1, 2]), ([1, 0], [3, 4])], some 2) := rfl

/-- … one that answers for data that are there does not, … -/
example : (∀ (d : String → Option (List (List Int))) (k : Key), (∀ n, k = .name n → d n = none) → (match k with | .name n => d n | _ => none) = none) ∧
    arrowData (fun d k => match k with | .name n => d n | _ => none) (fun p vs s _ => some (p.vertices.zip vs, s)) ["v"] 2 (some (2 : Int)) ([[0, 0], [1, 0]], some [[1, 2], [3, 4]]) (some none) "v" = .raised :=
  ⟨fun d k h => by cases k with
    | name n => exact h n rfl
    | absent => rfl
    | vertices => rfl, rfl⟩

/-- … and arrows of another dimension at one place -/
example : Spec.Arrows (([[0, 0]], none) : List (List Int) × Option (List (List Int))) (some (some ([[5, 5]], [[1, 2, 3]]))) [[5, 5]] [[1, 2, 3]] ∧ Spec.width [[(1 : Int), 2, 3]] ≠ 2 := ⟨.places rfl, by decide⟩

end Splinepy.ExtractArrows
