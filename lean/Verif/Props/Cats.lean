import Verif.Model.Cats
import Verif.Props.Files
import Verif.Lemma.Grid

/-!
C84: splines written to a CATS file come back as NURBS (or B-splines) with the same geometry.
-/
namespace Splinepy.Cats
open SplineCore Files

set_option linter.unusedSectionVars false

variable {K : Type} [Field K] [LinearOrder K] [IsStrictOrderedRing K]

/-! ### Specification -/

/-- `q` is `o` as a NURBS (`rational`) or B-spline: degrees and control points are kept, knot vectors and weights too if `o` has them; a spline without knot vectors gets those of
a Bezier spline on `[0, 1]`, a spline without weights the weights 1. -/
structure Spec.Converted (rational : Bool) (o q : Obj K) : Prop where
  cls : q.cls = if rational then .nurbs else .bspline
  kind : q.core.kind = if rational then .nurbs else .bspline
  degrees : q.core.degrees = o.core.degrees
  points : q.core.cps = o.core.cps
  kept : ∀ l, o.core.kvs = some l → q.core.kvs = some l
  unit : o.core.kvs = none → ∃ l, q.core.kvs = some l ∧ l.length = o.core.degrees.length ∧
    ∀ i (h : i < l.length) (h' : i < o.core.degrees.length), l[i].length = 2 * (o.core.degrees[i] + 1).toNat ∧
      ∀ j (hj : j < l[i].length), l[i][j] = if j < (o.core.degrees[i] + 1).toNat then 0 else 1
  weights : ∀ w, o.core.ws = some w → rational = true ∧ q.core.ws = some w
  ones : o.core.ws = none → q.core.ws = if rational then some (List.replicate o.core.cps.rows.length 1) else none

/-! ### Proofs -/

theorem unitKnots_fit (ds : List Int) (hd : ∀ d ∈ ds, 0 ≤ d) (n : ℕ) (hn : (n : Int) = (ds.map (· + 1)).prod) : Splinepy.Spec.KnotVectorsFit ds n (unitKnots (K := K) ds) := by
  refine ⟨by simp [unitKnots], ?_, ?_⟩
  · intro dk h
    have : ds.zip (unitKnots (K := K) ds) = ds.map fun d => (d, List.replicate (d + 1).toNat 0 ++ List.replicate (d + 1).toNat 1) := by
      apply List.ext_getElem
      · simp [unitKnots]
      · intro i hi hi'
        simp [unitKnots]
    rw [this] at h
    obtain ⟨d, hm, rfl⟩ := List.mem_map.1 h
    have := hd d hm
    constructor
    · simp only
      rw [List.pairwise_append]
      refine ⟨List.pairwise_replicate.2 (Or.inr le_rfl), List.pairwise_replicate.2 (Or.inr le_rfl), ?_⟩
      intro a ha b hb
      rw [(List.mem_replicate.1 ha).2, (List.mem_replicate.1 hb).2]
      exact zero_le_one
    · simp only [List.length_append, List.length_replicate]
      push_cast
      omega
  · rw [hn]
    congr 1
    apply List.ext_getElem
    · simp [unitKnots]
    · intro i hi hi'
      have := hd (ds[i]'(by simpa using hi)) (List.getElem_mem _)
      simp only [List.getElem_map, List.getElem_zip, unitKnots, List.length_append, List.length_replicate]
      push_cast
      omega

theorem convert_spec (maxDim : ℕ) (o : Obj K) (h : Files.Spec.Constructed maxDim o) (hcls : o.cls ≠ .spline) (rational : Bool) (hr : o.core.ws.isSome = true → rational = true) :
    ∃ q, convert rational o = some q ∧ Spec.Converted rational o q ∧ Files.Spec.Constructed maxDim q ∧ q.cls ≠ .spline ∧ q.core.kvs.isSome := by
  obtain ⟨⟨ds, kvs, cps, ws, s, hg', hs, hc⟩, hrect⟩ := h
  have hcore := core_of_construct maxDim o.cls ds cps kvs ws hg' s hs
  rw [hc] at hcore
  have hcore := Option.some.inj hcore
  obtain ⟨⟨h1, h2, h3, h4⟩, ⟨d1, d2, d3, d4⟩, hk⟩ := (construction_accepts_partial maxDim o.cls ds cps kvs ws hg').1 (by rw [hs]; rfl)
  obtain ⟨cls, core⟩ := o
  simp only at hcore hr hrect hcls
  subst hcore
  simp only at hr hrect
  have hfit : Splinepy.Spec.KnotVectorsFit ds cps.rows.length (kvs.getD (unitKnots ds)) := by
    cases kvs with
    | none => exact unitKnots_fit ds h1 _ (h3 rfl)
    | some l => exact h2 l rfl
  have hlow : ∀ kv ∈ kvs.getD (unitKnots ds), ∀ k ∈ kv, (-1 : K) ≤ k := by
    cases kvs with
    | none =>
      intro kv hkv k hk
      obtain ⟨d, _, rfl⟩ := List.mem_map.1 hkv
      rcases List.mem_append.1 hk with hk | hk
      · rw [(List.mem_replicate.1 hk).2]; norm_num
      · rw [(List.mem_replicate.1 hk).2]; linarith [zero_lt_one (α := K)]
    | some l => exact hk l rfl
  have hones : cps.rows.map (fun _ => (1 : K)) = List.replicate cps.rows.length 1 := by simp
  have hcons : ∀ (cl : Cls) (ws' : Option (List K)), (∀ w, ws' = some w → w.length = cps.rows.length) → Given cl ⟨some ds, some (kvs.getD (unitKnots ds)), some cps, ws'⟩ →
      Files.Spec.Constructed maxDim ⟨cl, ⟨dispatch true ws'.isSome, ds, some (kvs.getD (unitKnots ds)), cps, ws'⟩⟩ := by
    intro cl ws' hw' hg
    have hs := (construction_accepts_partial maxDim cl ds cps (some (kvs.getD (unitKnots ds))) ws' hg).2
      ⟨⟨h1, fun l hl => by obtain rfl := Option.some.inj hl; exact hfit, fun e => by simp at e, hw'⟩, ⟨d1, d2, d3, fun e => by simp at e⟩,
        fun l hl => by obtain rfl := Option.some.inj hl; exact hlow⟩
    obtain ⟨s, hs⟩ := Option.isSome_iff_exists.1 hs
    exact ⟨⟨ds, _, cps, ws', s, hg, hs, core_of_construct maxDim _ _ _ _ _ hg s hs⟩, hrect⟩
  have hunit : kvs = none → ∃ l, some (kvs.getD (unitKnots (K := K) ds)) = some l ∧ l.length = ds.length ∧
    ∀ i (h : i < l.length) (h' : i < ds.length), l[i].length = 2 * (ds[i] + 1).toNat ∧ ∀ j (hj : j < l[i].length), l[i][j] = if j < (ds[i] + 1).toNat then 0 else 1 := by
    rintro rfl
    refine ⟨_, rfl, by simp [unitKnots], ?_⟩
    intro i h h'
    simp only [Option.getD_none, unitKnots, List.getElem_map]
    refine ⟨by simp; omega, fun j hj => ?_⟩
    rw [List.getElem_append]
    simp
  unfold convert
  rw [if_neg hcls]
  cases rational with
  | true =>
    refine ⟨_, rfl, ⟨rfl, rfl, rfl, rfl, ?_, hunit, ?_, ?_⟩, ?_, by simp, rfl⟩
    · rintro l rfl; rfl
    · rintro w rfl; exact ⟨rfl, rfl⟩
    · rintro rfl; simp [hones]
    · refine hcons .nurbs (some (ws.getD _)) ?_ ?_
      · intro w hw
        obtain rfl := Option.some.inj hw
        cases ws with
        | none => simp
        | some w => exact h4 w rfl
      · refine ⟨rfl, rfl, ?_, ?_, ?_, ?_⟩ <;> simp [Cls.requiresKvs, Cls.requiresWs, Cls.takesKvs, Cls.takesWs]
  | false =>
    have hw : ws = none := by
      cases ws with
      | none => rfl
      | some w => exact absurd (hr rfl) (by simp)
    subst hw
    refine ⟨_, rfl, ⟨rfl, rfl, rfl, rfl, ?_, hunit, ?_, ?_⟩, ?_, by simp, rfl⟩
    · rintro l rfl; rfl
    · rintro w e; cases e
    · rintro -; rfl
    · refine hcons .bspline none (by simp) ?_
      refine ⟨rfl, rfl, ?_, ?_, ?_, ?_⟩ <;> simp [Cls.requiresKvs, Cls.requiresWs, Cls.takesKvs, Cls.takesWs]

theorem read_entry (maxDim : ℕ) (q : Obj K) (h : Files.Spec.Constructed maxDim q) (hk : q.core.kvs.isSome) :
    readSpline (entryOf q) = some ⟨some q.core.degrees, q.core.kvs, some q.core.cps, q.core.ws⟩ := by
  obtain ⟨hg, hdim1, hrows, hdeg, hkl, hkind⟩ := constructed_facts maxDim q h
  have hrect := h.2
  obtain ⟨l, hl⟩ := Option.isSome_iff_exists.1 hk
  have hp : readPoints q.core.cps.dim q.core.cps.dim q.core.cps.rows.flatten = some q.core.cps := by
    unfold readPoints
    rw [reshape_flatten (by omega) _ _ hrect le_rfl]
    simp only [Option.map_some, min_self]
    congr 1
    obtain ⟨cls, kind, ds, kvs, ⟨dim, rows⟩, ws⟩ := q
    simp only at hrect ⊢
    congr 1
    conv_rhs => rw [← List.map_id rows]
    exact List.map_congr_left fun r hr => by rw [List.take_of_length_le (by rw [hrect r hr])]; rfl
  unfold readSpline entryOf
  simp only
  rw [if_neg (by simp)]
  cases hw : q.core.ws with
  | none => simp [readChild, hp, hl, List.foldlM_cons]
  | some w => simp [readChild, hp, hl, List.foldlM_cons]

/-- C84: a list of splines of the four kinds, written to a CATS file and read back, gives the list of these splines as NURBS; with `make_rational=False`, those without weights come
back as B-splines. -/
theorem cats_round_trip_partial (maxDim : ℕ) (makeRational : Bool) (objs : List (Obj K)) (h : ∀ o ∈ objs, Files.Spec.Constructed maxDim o ∧ o.cls ≠ .spline) :
    ∃ back, (exportFile makeRational objs).bind (load maxDim) = some back ∧ List.Forall₂ (fun o q => Spec.Converted (o.core.ws.isSome || makeRational) o q) objs back := by
  have hconv : ∀ o ∈ objs, ∃ q, convert (o.core.ws.isSome || makeRational) o = some q ∧ Spec.Converted (o.core.ws.isSome || makeRational) o q ∧ Files.Spec.Constructed maxDim q ∧
      q.cls ≠ .spline ∧ q.core.kvs.isSome := fun o ho => convert_spec maxDim o (h o ho).1 (h o ho).2 _ (fun e => by rw [e]; rfl)
  let f : Obj K → Obj K := fun o => (convert (o.core.ws.isSome || makeRational) o).getD o
  have hf : ∀ o ∈ objs, convert (o.core.ws.isSome || makeRational) o = some (f o) := by
    intro o ho
    obtain ⟨q, hq, -⟩ := hconv o ho
    simp only [f, hq, Option.getD_some]
  refine ⟨objs.map f, ?_, ?_⟩
  · unfold exportFile
    rw [Grid.mapM_eq_some_map' _ (fun o => entryOf (f o)) objs fun o ho => by rw [hf o ho]; rfl]
    simp only [Option.map_some, Option.bind_some]
    unfold load
    simp only [Bool.not_true, Bool.false_eq_true, if_false, Option.getD_some, ne_eq, not_true_eq_false]
    rw [List.mapM_map, Grid.mapM_eq_some_map' _ (fun o => (⟨some (f o).core.degrees, (f o).core.kvs, some (f o).core.cps, (f o).core.ws⟩ : Props K)) objs fun o ho => ?_]
    · simp only [Option.bind_some, List.length_map, not_true_eq_false, if_false]
      rw [List.mapM_map]
      refine Grid.mapM_eq_some_map' _ _ _ fun o ho => ?_
      obtain ⟨q, hq, -, hcon, hcls, -⟩ := hconv o ho
      rw [hf o ho] at hq
      obtain rfl := Option.some.inj hq
      obtain ⟨s, hs, hc⟩ := reconstruct maxDim (f o) hcon .spline (by
        refine ⟨rfl, rfl, ?_, ?_, ?_, ?_⟩ <;> simp [Cls.requiresKvs, Cls.requiresWs, Cls.takesKvs, Cls.takesWs])
      unfold dictToSpline
      simp only [Function.comp]
      rw [hs, Option.bind_some, hc]
      exact congrArg some (named_eq maxDim (f o) hcon hcls)
    · obtain ⟨q, hq, -, hcon, -, hk⟩ := hconv o ho
      rw [hf o ho] at hq
      obtain rfl := Option.some.inj hq
      exact read_entry maxDim (f o) hcon hk
  · rw [List.forall₂_map_right_iff]
    refine List.forall₂_same.2 fun o ho => ?_
    obtain ⟨q, hq, hs, -⟩ := hconv o ho
    rw [hf o ho] at hq
    obtain rfl := Option.some.inj hq
    exact hs

/-- C84: NURBS come back unchanged. -/
theorem cats_round_trip_nurbs (maxDim : ℕ) (makeRational : Bool) (objs : List (Obj K)) (h : ∀ o ∈ objs, Files.Spec.Constructed maxDim o ∧ o.cls = .nurbs) :
    (exportFile makeRational objs).bind (load maxDim) = some objs := by
  obtain ⟨back, hb, hf⟩ := cats_round_trip_partial maxDim makeRational objs fun o ho => ⟨(h o ho).1, by rw [(h o ho).2]; simp⟩
  rw [hb]
  congr 1
  have : List.Forall₂ (fun o q => q = o) objs back := by
    refine List.Forall₂.imp ?_ ((List.forall₂_and_left _ _).2 ⟨fun o ho => ho, hf⟩)
    rintro o q ⟨ho, hc⟩
    obtain ⟨hg, -, -, -, -, hkind⟩ := constructed_facts maxDim o (h o ho).1
    obtain ⟨-, -, g3, g4, -, -⟩ := hg
    have hcls := (h o ho).2
    rw [hcls] at g3 g4
    obtain ⟨l, hl⟩ := Option.isSome_iff_exists.1 (g3 rfl)
    obtain ⟨w, hw⟩ := Option.isSome_iff_exists.1 (g4 rfl)
    simp only at hl hw
    obtain ⟨c1, c2, c3, c4, c5, -, c7, -⟩ := hc
    have hk := c5 l hl
    have hw' := (c7 w hw).2
    rw [hw] at c1 c2
    rw [hl, hw] at hkind
    simp only [Option.isSome_some, Bool.true_or, if_true] at c1 c2
    obtain ⟨cls, kind, ds, kvs, cps, ws⟩ := o
    obtain ⟨cls', kind', ds', kvs', cps', ws'⟩ := q
    simp only at hl hw hcls hkind c1 c2 c3 c4 hk hw'
    subst hl hw hcls hkind c1 c2 c3 c4 hk hw'
    rfl
  exact (List.forall₂_eq_eq_eq ▸ (List.Forall₂.imp (fun o q e => e.symm) this) : List.Forall₂ (· = ·) objs back) |> fun h => (List.forall₂_eq_eq_eq ▸ h : objs = back).symm

/-- C84: splines of class `Spline` cannot be written. -/
theorem cats_spline_class_violates : Files.Spec.Constructed 3 exampleSplineClass ∧ ∀ makeRational, exportFile makeRational [exampleSplineClass] = none :=
  ⟨exampleSplineClass_constructed, fun r => by cases r <;> rfl⟩

/-- Non-vacuity: a NURBS curve and its B-spline and Bezier relatives. -/
example : ∃ back, (exportFile true [exampleNurbs]).bind (load 3) = some back := ⟨_, (cats_round_trip_nurbs 3 true [exampleNurbs] fun o ho => by
  rw [List.mem_singleton] at ho
  subst ho
  exact ⟨exampleNurbs_constructed, rfl⟩)⟩

/-- A Bezier line: its file holds the unit knots, and weights if `make_rational`. -/
example : (exportFile (K := ℚ) false [⟨.bezier, ⟨.bezier, [1], none, ⟨1, [[3], [5]]⟩, none⟩⟩]).bind (load 10) = some [⟨.bspline, ⟨.bspline, [1], some [[0, 0, 1, 1]], ⟨1, [[3], [5]]⟩, none⟩⟩]
    ∧ (exportFile (K := ℚ) true [⟨.bezier, ⟨.bezier, [1], none, ⟨1, [[3], [5]]⟩, none⟩⟩]).bind (load 10) =
      some [⟨.nurbs, ⟨.nurbs, [1], some [[0, 0, 1, 1]], ⟨1, [[3], [5]]⟩, some [1, 1]⟩⟩] := by
  decide +kernel

end Splinepy.Cats
