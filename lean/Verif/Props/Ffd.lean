import Verif.Props.Normalize

/-!
C36, C71: freeform deformation.
-/
set_option linter.unusedSectionVars false
namespace Splinepy.Ffd
open Splinepy.Index (Spline)
open Splinepy.Spec Finset

variable {K : Type} [Field K] [LinearOrder K] [IsStrictOrderedRing K]

/-! ### specification -/

/-- a mesh: at least one vertex, all of them with the same positive number of coordinates -/
def Spec.IsMesh (m : List (List K)) (d : ℕ) : Prop := m ≠ [] ∧ 0 < d ∧ ∀ v ∈ m, v.length = d

/-- `lo` and `up` are the smallest and largest coordinates of the mesh -/
def Spec.IsBounds (m : List (List K)) (d : ℕ) (lo up : List K) : Prop :=
  lo.length = d ∧ up.length = d ∧ ∀ k < d, (∀ v ∈ m, lo.getD k 0 ≤ v.getD k 0 ∧ v.getD k 0 ≤ up.getD k 0) ∧
    (∃ v ∈ m, lo.getD k 0 = v.getD k 0) ∧ ∃ v ∈ m, up.getD k 0 = v.getD k 0

/-- parametric coordinate of a vertex: the box enlarged by the padding is mapped to the unit interval -/
def Spec.coordinate (padding lo up x : K) : K := (x - (lo - padding)) / (up - lo + 2 * padding)

/-! ### bounds -/

theorem meshDim_eq {m : List (List K)} {d : ℕ} (hm : Spec.IsMesh m d) : meshDim m = d := by
  obtain ⟨h1, -, h3⟩ := hm
  cases m with
  | nil => exact absurd rfl h1
  | cons v vs => exact h3 v (by simp)

theorem fold_spec (f : K → K → K) (hf : ∀ a b, f a b = a ∨ f a b = b) (R : K → K → Prop) (hr : ∀ a, R a a) (ht : ∀ a b c, R a b → R b c → R a c)
    (h1 : ∀ a b, R (f a b) a) (h2 : ∀ a b, R (f a b) b) (d : ℕ) (vs : List (List K)) (hvs : ∀ v ∈ vs, v.length = d) (a : List K) (ha : a.length = d) :
    (vs.foldl (fun m w => List.zipWith f m w) a).length = d ∧ ∀ k < d,
      (∀ v ∈ a :: vs, R ((vs.foldl (fun m w => List.zipWith f m w) a).getD k 0) (v.getD k 0)) ∧
      ∃ v ∈ a :: vs, (vs.foldl (fun m w => List.zipWith f m w) a).getD k 0 = v.getD k 0 := by
  induction vs generalizing a with
  | nil =>
    refine ⟨ha, fun k hk => ⟨?_, a, by simp, rfl⟩⟩
    intro v hv
    rw [List.mem_singleton] at hv
    subst hv
    exact hr _
  | cons w vs ih =>
    have hw := hvs w (by simp)
    obtain ⟨i1, i2⟩ := ih (fun v hv => hvs v (List.mem_cons_of_mem _ hv)) (List.zipWith f a w) (by simp [ha, hw])
    rw [List.foldl_cons]
    refine ⟨i1, fun k hk => ?_⟩
    obtain ⟨j1, v, j2, j3⟩ := i2 k hk
    have hz : (List.zipWith f a w).getD k 0 = f (a.getD k 0) (w.getD k 0) := by
      rw [List.getD_eq_getElem _ _ (by simp [ha, hw, hk]), List.getD_eq_getElem _ _ (by omega), List.getD_eq_getElem _ _ (by omega), List.getElem_zipWith]
    have j0 := j1 _ (List.mem_cons_self)
    rw [hz] at j0
    refine ⟨?_, ?_⟩
    · intro x hx
      rcases List.mem_cons.1 hx with rfl | hx
      · exact ht _ _ _ j0 (h1 _ _)
      · rcases List.mem_cons.1 hx with rfl | hx
        · exact ht _ _ _ j0 (h2 _ _)
        · exact j1 x (List.mem_cons_of_mem _ hx)
    · rcases List.mem_cons.1 j2 with rfl | j2
      · rw [hz] at j3
        rcases hf (a.getD k 0) (w.getD k 0) with h | h
        · exact ⟨a, by simp, j3.trans h⟩
        · exact ⟨w, by simp, j3.trans h⟩
      · exact ⟨v, by simp [j2], j3⟩

theorem bounds_spec {m : List (List K)} {d : ℕ} (hm : Spec.IsMesh m d) : Spec.IsBounds m d (lower m) (upper m) := by
  obtain ⟨h1, h2, h3⟩ := hm
  cases m with
  | nil => exact absurd rfl h1
  | cons v vs =>
    have hvs : ∀ w ∈ vs, w.length = d := fun w hw => h3 w (List.mem_cons_of_mem _ hw)
    obtain ⟨a1, a2⟩ := fold_spec min (fun a b => min_choice a b) (· ≤ ·) le_refl (fun _ _ _ => le_trans) min_le_left min_le_right d vs hvs v (h3 v (by simp))
    obtain ⟨b1, b2⟩ := fold_spec max (fun a b => max_choice a b) (· ≥ ·) le_refl (fun _ _ _ h h' => le_trans h' h) le_max_left le_max_right d vs hvs v (h3 v (by simp))
    refine ⟨a1, b1, fun k hk => ⟨fun w hw => ⟨(a2 k hk).1 w hw, (b2 k hk).1 w hw⟩, (a2 k hk).2, (b2 k hk).2⟩⟩

theorem scaleVertex_spec {d : ℕ} {padding : K} {lo up v : List K} (hl : lo.length = d) (hu : up.length = d) (hv : v.length = d) :
    (scaleVertex padding lo up v).length = d ∧ ∀ k < d, (scaleVertex padding lo up v).getD k 0 = Spec.coordinate padding (lo.getD k 0) (up.getD k 0) (v.getD k 0) := by
  have hlen : (scaleVertex padding lo up v).length = d := by simp [scaleVertex, hl, hu, hv]
  refine ⟨hlen, fun k hk => ?_⟩
  rw [List.getD_eq_getElem _ _ (by omega), List.getD_eq_getElem lo _ (by omega), List.getD_eq_getElem up _ (by omega), List.getD_eq_getElem v _ (by omega)]
  simp only [scaleVertex, List.getElem_zipWith, List.getElem_map, Spec.coordinate]
  rw [mul_one_div]
  congr 1
  ring

/-- C36: every vertex of a mesh, flat ones included, gets parametric coordinates strictly between zero and one. -/
theorem coordinates_inside {m : List (List K)} {d : ℕ} (hm : Spec.IsMesh m d) {padding : K} (hp : 0 < padding) (v : List K) (hv : v ∈ m) :
    (scaleVertex padding (lower m) (upper m) v).length = d ∧ ∀ k < d, 0 < (scaleVertex padding (lower m) (upper m) v).getD k 0 ∧
      (scaleVertex padding (lower m) (upper m) v).getD k 0 < 1 := by
  obtain ⟨h1, h2, h3⟩ := bounds_spec hm
  obtain ⟨s1, s2⟩ := scaleVertex_spec (padding := padding) h1 h2 (hm.2.2 v hv)
  refine ⟨s1, fun k hk => ?_⟩
  rw [s2 k hk]
  obtain ⟨a, b⟩ := (h3 k hk).1 v hv
  unfold Spec.coordinate
  have hpos : 0 < (upper m).getD k 0 - (lower m).getD k 0 + 2 * padding := by linarith
  exact ⟨div_pos (by linarith) hpos, by rw [div_lt_one hpos]; linarith⟩

/-- C36: parametric coordinates have the order of the vertices, and distances are scaled by a factor per direction. -/
theorem coordinates_order {m : List (List K)} {d : ℕ} (hm : Spec.IsMesh m d) {padding : K} (hp : 0 < padding) (k : ℕ) (hk : k < d) : ∃ c : K, 0 < c ∧
    ∀ v ∈ m, ∀ w ∈ m, (scaleVertex padding (lower m) (upper m) w).getD k 0 - (scaleVertex padding (lower m) (upper m) v).getD k 0 = c * (w.getD k 0 - v.getD k 0) := by
  obtain ⟨h1, h2, h3⟩ := bounds_spec hm
  obtain ⟨v0, hv0⟩ := List.exists_mem_of_ne_nil _ hm.1
  obtain ⟨a, b⟩ := (h3 k hk).1 v0 hv0
  have hpos : 0 < (upper m).getD k 0 - (lower m).getD k 0 + 2 * padding := by linarith
  refine ⟨1 / ((upper m).getD k 0 - (lower m).getD k 0 + 2 * padding), by positivity, fun v hv w hw => ?_⟩
  rw [(scaleVertex_spec h1 h2 (hm.2.2 v hv)).2 k hk, (scaleVertex_spec h1 h2 (hm.2.2 w hw)).2 k hk]
  unfold Spec.coordinate
  rw [← sub_div, one_div, inv_mul_eq_div]
  congr 1
  ring

/-! ### histories -/

/-- What holds after every history: the padding is at least the tolerance, a mesh comes with its parametric coordinates for the current padding, a spline
with normalised knots fits the mesh. -/
structure Spec.Inv (tol : K) (st : State K) : Prop where
  pad : tol ≤ st.padding
  query : st.qVertices = st.mesh.map fun m => m.map (scaleVertex st.padding (lower m) (upper m))
  dims : ∀ m s, st.mesh = some m → st.spline = some s → dimsMatch s m = true

theorem normalize_dims (s : Spline K (List K)) (m : List (List K)) : dimsMatch (normalizeKnots s) m = dimsMatch s m := rfl

theorem setSpline_inv {tol : K} {st : State K} (h : Spec.Inv tol st) (s : Option (Spline K (List K))) : Spec.Inv tol (setSpline st s).1 := by
  obtain ⟨mesh, spline, q, pad⟩ := st
  obtain ⟨h1, h2, h3⟩ := h
  cases s with
  | none => exact ⟨h1, h2, by intro m s _ hs; cases hs⟩
  | some s =>
    cases mesh with
    | none => exact ⟨h1, h2, by intro m' s' hm'; cases hm'⟩
    | some m =>
      by_cases hd : dimsMatch s m = true
      · have : setSpline ⟨some m, spline, q, pad⟩ (some s) = (⟨some m, some (normalizeKnots s), q, pad⟩, false) := by simp [setSpline, hd]
        rw [this]
        refine ⟨h1, h2, ?_⟩
        intro m' s' hm' hs'
        cases hm'
        cases hs'
        rw [normalize_dims]
        exact hd
      · have : setSpline ⟨some m, spline, q, pad⟩ (some s) = (⟨some m, spline, q, pad⟩, true) := by simp [setSpline, hd]
        rw [this]
        exact ⟨h1, h2, h3⟩

/-- the spline that is created for a mesh -/
def Spec.IsDefault (m : List (List K)) (d : ℕ) (s : Spline K (List K)) : Prop :=
  ∃ b, Create.fromBounds (List.replicate d 0) (List.replicate d 1) (lower m) (upper m) = some b ∧ s = normalizeKnots b

/-- Outcome of the assignment of a mesh: it raises exactly if no fitting spline is present and another mesh with another dimension is; then the spline is
gone. Otherwise mesh, query points and a fitting spline are present: the former one if it fits. -/
theorem setMesh_outcome (st : State K) {m : List (List K)} {d : ℕ} (hm : Spec.IsMesh m d) :
    (∃ s, setMesh st (some m) = (⟨some m, some s, some (m.map (scaleVertex st.padding (lower m) (upper m))), st.padding⟩, false) ∧ dimsMatch s m = true ∧
      (st.spline = some s ∨ ((∀ s', st.spline = some s' → dimsMatch s' m = false) ∧ (∀ m0, st.mesh = some m0 → meshDim m0 = meshDim m) ∧ Spec.IsDefault m d s))) ∨
    (setMesh st (some m) = (⟨st.mesh, none, st.qVertices, st.padding⟩, true) ∧ (∀ s', st.spline = some s' → dimsMatch s' m = false) ∧
      ∃ m0, st.mesh = some m0 ∧ meshDim m0 ≠ meshDim m) := by
  obtain ⟨mesh, spline, q, pad⟩ := st
  obtain ⟨b1, b2, -⟩ := bounds_spec hm
  have hdim := meshDim_eq hm
  obtain ⟨b, e1, -, -, e4, -⟩ := Create.fromBounds_evaluates (List.replicate d (0 : K)) (List.replicate d 1) (lower m) (upper m) d hm.2.1 b1 b2
    (by simp) (by simp) (by
      intro i hi
      rw [List.getD_eq_getElem _ _ (by simp [hi]), List.getD_eq_getElem _ _ (by simp [hi])]
      simp)
  have hb : dimsMatch (normalizeKnots b) m = true := by
    rw [normalize_dims]
    unfold dimsMatch
    rw [e4, hdim]
    simp
  have hbm : ∀ m0 : List (List K), dimsMatch b m0 = decide (meshDim m = meshDim m0) := by
    intro m0
    unfold dimsMatch
    rw [e4, hdim, List.length_replicate]
  have key : ∀ spl, (∀ s', spl = some s' → dimsMatch s' m = false) → dropMismatch ⟨mesh, spl, q, pad⟩ m = ⟨mesh, none, q, pad⟩ →
      (∃ s, setMesh ⟨mesh, spl, q, pad⟩ (some m) = (⟨some m, some s, some (m.map (scaleVertex pad (lower m) (upper m))), pad⟩, false) ∧ dimsMatch s m = true ∧
        (spl = some s ∨ ((∀ s', spl = some s' → dimsMatch s' m = false) ∧ (∀ m0, mesh = some m0 → meshDim m0 = meshDim m) ∧ Spec.IsDefault m d s))) ∨
      (setMesh ⟨mesh, spl, q, pad⟩ (some m) = (⟨mesh, none, q, pad⟩, true) ∧ (∀ s', spl = some s' → dimsMatch s' m = false) ∧
        ∃ m0, mesh = some m0 ∧ meshDim m0 ≠ meshDim m) := by
    intro spl hs hdrop
    unfold setMesh
    simp only [hdrop, Option.isNone_none, if_true, createDefault, hdim, e1, setSpline]
    cases mesh with
    | none =>
      left
      exact ⟨normalizeKnots b, by simp, hb, Or.inr ⟨hs, by simp, b, e1, rfl⟩⟩
    | some m0 =>
      by_cases h0 : meshDim m = meshDim m0
      · left
        refine ⟨normalizeKnots b, ?_, hb, Or.inr ⟨hs, by simp [← h0, hdim], b, e1, rfl⟩⟩
        simp [hbm, h0]
      · right
        refine ⟨?_, hs, m0, rfl, fun h => h0 (by rw [hdim]; exact h.symm)⟩
        simp [hbm, h0]
  cases spline with
  | none => exact key none (by intro s' h; cases h) rfl
  | some s =>
    by_cases hs : dimsMatch s m = true
    · left
      refine ⟨s, ?_, hs, Or.inl rfl⟩
      simp [setMesh, dropMismatch, hs]
    · refine key (some s) ?_ (by simp [dropMismatch, hs])
      intro s' h
      cases h
      simpa using hs

theorem setMesh_inv {tol : K} {st : State K} (h : Spec.Inv tol st) (m : Option (List (List K))) (hm : ∀ x, m = some x → ∃ d, Spec.IsMesh x d) :
    Spec.Inv tol (setMesh st m).1 := by
  cases m with
  | none => exact ⟨h.pad, rfl, by intro m s hm; cases hm⟩
  | some m =>
    obtain ⟨d, hmd⟩ := hm m rfl
    rcases setMesh_outcome st hmd with ⟨s, h1, h2, -⟩ | ⟨h1, -⟩
    · rw [h1]
      refine ⟨h.pad, rfl, ?_⟩
      intro m' s' hm' hs'
      cases hm'
      cases hs'
      exact h2
    · rw [h1]
      refine ⟨h.pad, h.query, ?_⟩
      intro m' s' _ hs'
      cases hs'

/-- Outcome of the assignment of a padding. -/
theorem setPadding_outcome {tol : K} (ht : 0 ≤ tol) {st : State K} (h : Spec.Inv tol st) (hm : ∀ x, st.mesh = some x → ∃ d, Spec.IsMesh x d) (p : K) :
    (p < tol ∧ setPadding tol st p = (st, true)) ∨ (tol ≤ p ∧ st.mesh = none ∧ setPadding tol st p = ({ st with padding := p }, false)) ∨
    (tol ≤ p ∧ ∃ m s, st.mesh = some m ∧ dimsMatch s m = true ∧ (∀ s', st.spline = some s' → s' = s) ∧
      setPadding tol st p = (⟨some m, some s, some (m.map (scaleVertex p (lower m) (upper m))), p⟩, false)) := by
  unfold setPadding
  by_cases h0 : p < 0
  · left
    exact ⟨lt_of_lt_of_le h0 ht, by rw [if_pos h0]⟩
  · rw [if_neg h0]
    by_cases h1 : p < tol
    · left; exact ⟨h1, by rw [if_pos h1]⟩
    · right
      rw [if_neg h1]
      obtain ⟨mesh, spline, q, pad⟩ := st
      cases mesh with
      | none =>
        left
        have hq : q = none := h.query
        exact ⟨not_lt.1 h1, rfl, by simp [hq]⟩
      | some m =>
        right
        have hq : q = some (m.map (scaleVertex pad (lower m) (upper m))) := h.query
        obtain ⟨d, hmd⟩ := hm m rfl
        refine ⟨not_lt.1 h1, m, ?_⟩
        rw [hq]
        simp only [Option.isSome_some, if_true]
        rcases setMesh_outcome ⟨some m, spline, some (m.map (scaleVertex pad (lower m) (upper m))), p⟩ hmd with ⟨s, a1, a2, a3⟩ | ⟨-, -, m0, a3, a4⟩
        · refine ⟨s, trivial, a2, ?_, a1⟩
          intro s' hs'
          rcases a3 with a3 | ⟨a3, -⟩
          · simp only at a3 hs'
            rw [a3] at hs'
            cases hs'
            rfl
          · have := a3 s' hs'
            rw [h.dims m s' rfl hs'] at this
            cases this
        · cases a3
          exact absurd rfl a4

theorem setPadding_inv {tol : K} (ht : 0 ≤ tol) {st : State K} (h : Spec.Inv tol st) (hm : ∀ x, st.mesh = some x → ∃ d, Spec.IsMesh x d) (p : K) :
    Spec.Inv tol (setPadding tol st p).1 := by
  rcases setPadding_outcome ht h hm p with ⟨-, a⟩ | ⟨a, b, c⟩ | ⟨a, m, s, b, c, -, e⟩
  · rw [a]; exact h
  · rw [c]
    refine ⟨a, ?_, ?_⟩
    · simp only [b, Option.map_none]; have := h.query; rw [b] at this; exact this
    · intro m s hm; simp only [b] at hm; cases hm
  · rw [e]
    refine ⟨a, rfl, ?_⟩
    intro m' s' h1 h2
    cases h1
    cases h2
    exact c

/-- the assigned meshes are meshes -/
def Spec.Admissible (ops : List (Op K)) : Prop := ∀ m, Op.mesh (some m) ∈ ops → ∃ d, Spec.IsMesh m d

theorem run_snoc (tol : K) (ops : List (Op K)) (op : Op K) : run tol (ops ++ [op]) = (step tol (run tol ops) op).1 := by
  unfold run; rw [List.foldl_append]; rfl

/-- C71: after every history of assignments, also of ones that raised, the query points belong to the current mesh and padding, the spline fits the mesh,
and the padding is not below the tolerance. -/
theorem history_consistent {tol : K} (ht : 0 ≤ tol) (ops : List (Op K)) (h : Spec.Admissible ops) :
    Spec.Inv tol (run tol ops) ∧ ∀ m, (run tol ops).mesh = some m → Op.mesh (some m) ∈ ops := by
  induction ops using List.reverseRecOn with
  | nil => exact ⟨⟨le_rfl, rfl, by intro m s hm; cases hm⟩, by intro m hm; cases hm⟩
  | append_singleton ops op ih =>
    obtain ⟨i1, i2⟩ := ih (fun m hm => h m (List.mem_append_left _ hm))
    have hmesh : ∀ x, (run tol ops).mesh = some x → ∃ d, Spec.IsMesh x d := fun x hx => h x (List.mem_append_left _ (i2 x hx))
    rw [run_snoc]
    cases op with
    | mesh m =>
      simp only [step]
      refine ⟨setMesh_inv i1 m (fun x hx => h x (by simp [hx])), ?_⟩
      cases m with
      | none => intro m hm; cases hm
      | some m =>
        obtain ⟨d, hmd⟩ := h m (by simp)
        intro m' hm'
        rcases setMesh_outcome (run tol ops) hmd with ⟨s, h1, -⟩ | ⟨h1, -⟩
        · rw [h1] at hm'; cases hm'; simp
        · rw [h1] at hm'
          exact List.mem_append_left _ (i2 m' hm')
    | spline s =>
      simp only [step]
      refine ⟨setSpline_inv i1 s, ?_⟩
      have : (setSpline (run tol ops) s).1.mesh = (run tol ops).mesh := by
        unfold setSpline
        cases s with
        | none => rfl
        | some s =>
          simp only
          split
          · split <;> simp [*]
          · simp [*]
      rw [this]
      intro m hm
      exact List.mem_append_left _ (i2 m hm)
    | padding p =>
      simp only [step]
      refine ⟨setPadding_inv ht i1 hmesh p, ?_⟩
      intro m hm
      apply List.mem_append_left
      rcases setPadding_outcome ht i1 hmesh p with ⟨-, a⟩ | ⟨a, b, c⟩ | ⟨a, m', s, b, c, -, e⟩
      · rw [a] at hm; exact i2 m hm
      · rw [c] at hm; exact i2 m hm
      · rw [e] at hm
        simp only [Option.some.injEq] at hm
        rw [← hm]
        exact i2 m' b

/-- C71: assignments of a spline or a padding that raise change nothing. -/
theorem raise_keeps_state {tol : K} (ht : 0 ≤ tol) (ops : List (Op K)) (h : Spec.Admissible ops) (op : Op K) (ho : ∀ m, op ≠ Op.mesh m)
    (hr : (step tol (run tol ops) op).2 = true) : (step tol (run tol ops) op).1 = run tol ops := by
  obtain ⟨i1, i2⟩ := history_consistent ht ops h
  cases op with
  | mesh m => exact absurd rfl (ho m)
  | spline s =>
    simp only [step] at hr ⊢
    cases s with
    | none => cases hr
    | some s =>
      unfold setSpline at hr ⊢
      simp only at hr ⊢
      split at hr
      · rename_i m hm
        split at hr
        · cases hr
        · rename_i h; rw [if_neg h]
      · cases hr
  | padding p =>
    simp only [step] at hr ⊢
    rcases setPadding_outcome ht i1 (fun x hx => h x (i2 x hx)) p with ⟨-, a⟩ | ⟨a, b, c⟩ | ⟨a, m, s, b, c, -, e⟩
    · rw [a]
    · rw [c] at hr; cases hr
    · rw [e] at hr; cases hr

/-- C71, the part that holds: if all meshes of a history have the same dimension and the spline is never set to nothing, no assignment of a mesh raises, and
from then on the deformed mesh is available: the current spline evaluated at the query points of the current mesh. -/
theorem history_usable_partial {tol : K} (ht : 0 ≤ tol) (evaluate : Spline K (List K) → List K → List K) (d : ℕ) (ops : List (Op K))
    (h : ∀ m, Op.mesh (some m) ∈ ops → Spec.IsMesh m d) (hs : Op.spline none ∉ ops) :
    (∀ m, Spec.IsMesh m d → (step tol (run tol ops) (.mesh (some m))).2 = false) ∧
    ∀ m, (run tol ops).mesh = some m → ∃ s, (run tol ops).spline = some s ∧
      getMesh evaluate (run tol ops) = some (m.map fun v => evaluate s (scaleVertex (run tol ops).padding (lower m) (upper m) v)) := by
  have hadm : Spec.Admissible ops := fun m hm => ⟨d, h m hm⟩
  have hsp : ∀ m, (run tol ops).mesh = some m → ∃ s, (run tol ops).spline = some s := by
    clear hadm
    induction ops using List.reverseRecOn with
    | nil => intro m hm; cases hm
    | append_singleton ops op ih =>
      have h' : ∀ m, Op.mesh (some m) ∈ ops → Spec.IsMesh m d := fun m hm => h m (List.mem_append_left _ hm)
      have hs' : Op.spline none ∉ ops := fun hh => hs (List.mem_append_left _ hh)
      have ih := ih h' hs'
      obtain ⟨i1, i2⟩ := history_consistent ht ops (fun m hm => ⟨d, h' m hm⟩)
      rw [run_snoc]
      cases op with
      | mesh m =>
        simp only [step]
        cases m with
        | none => intro m hm; cases hm
        | some m =>
          have hmd := h m (by simp)
          rcases setMesh_outcome (run tol ops) hmd with ⟨s, h1, -⟩ | ⟨-, -, m0, h1, h2⟩
          · rw [h1]; exact fun _ _ => ⟨s, rfl⟩
          · exact absurd (by rw [meshDim_eq hmd, meshDim_eq (h' m0 (i2 m0 h1))]) h2
      | spline s =>
        simp only [step]
        cases s with
        | none => exact absurd (by simp) hs
        | some s =>
          unfold setSpline
          simp only
          split
          · rename_i m hm
            split
            · intro _ _; exact ⟨_, rfl⟩
            · exact ih
          · intro _ _; exact ⟨_, rfl⟩
      | padding p =>
        simp only [step]
        rcases setPadding_outcome ht i1 (fun x hx => ⟨d, h' x (i2 x hx)⟩) p with ⟨-, a⟩ | ⟨a, b, c⟩ | ⟨a, m', s, b, c, -, e⟩
        · rw [a]; exact ih
        · rw [c]; exact ih
        · rw [e]; exact fun _ _ => ⟨s, rfl⟩
  obtain ⟨i1, i2⟩ := history_consistent ht ops hadm
  refine ⟨?_, ?_⟩
  · intro m hmd
    simp only [step]
    rcases setMesh_outcome (run tol ops) hmd with ⟨s, h1, -⟩ | ⟨-, -, m0, h1, h2⟩
    · rw [h1]
    · exact absurd (by rw [meshDim_eq hmd, meshDim_eq (h m0 (i2 m0 h1))]) h2
  · intro m hm
    obtain ⟨s, hs⟩ := hsp m hm
    refine ⟨s, hs, ?_⟩
    have hq := i1.query
    unfold getMesh
    rw [hm] at hq ⊢
    rw [hs, hq]
    simp [List.map_map, Function.comp_def]

/-- a history with two meshes, a new padding and a spline -/
example : ∀ m, Op.mesh (some m) ∈ ([.mesh (some [[0, 0], [1, 2]]), .padding 1, .mesh (some [[3, 3]]),
    .spline (some ⟨[1, 1], none, none, [[0, 0], [1, 0], [0, 1], [2, 2]]⟩)] : List (Op ℚ)) → Spec.IsMesh m 2 := by
  intro m hm
  simp only [List.mem_cons, Op.mesh.injEq, Option.some.injEq, reduceCtorEq, false_or, List.not_mem_nil, or_false] at hm
  rcases hm with rfl | rfl <;> exact ⟨by simp, by simp, by simp⟩

/-- C71, where the code deviates: assigning a mesh of another dimension raises although a new default spline should replace the old one; afterwards the old
mesh is there without a spline, so that the deformed mesh is no longer available. -/
theorem other_dimension_violates (evaluate : Spline ℚ (List ℚ) → List ℚ → List ℚ) :
    (step (1/10 : ℚ) (run (1/10 : ℚ) [.mesh (some [[0, 0], [1, 2]])]) (.mesh (some [[0, 0, 0], [1, 1, 1]]))).2 = true ∧
    getMesh evaluate (run (1/10 : ℚ) [.mesh (some [[0, 0], [1, 2]]), .mesh (some [[0, 0, 0], [1, 1, 1]])]) = none := by
  constructor
  · decide +kernel
  · have : (run (1/10 : ℚ) [.mesh (some [[0, 0], [1, 2]]), .mesh (some [[0, 0, 0], [1, 1, 1]])]).spline.isNone = true := by decide +kernel
    rw [Option.isNone_iff_eq_none] at this
    unfold getMesh
    rw [this]
    split
    · rename_i h1 h2 h3; cases h2
    · rfl

/-- ... for every object that holds a mesh, whatever its history. -/
theorem other_dimension_always_violates {tol : K} (ht : 0 ≤ tol) (evaluate : Spline K (List K) → List K → List K) (ops : List (Op K)) (h : Spec.Admissible ops) (m m' : List (List K)) (d d' : ℕ)
    (hm : (run tol ops).mesh = some m) (hmd : Spec.IsMesh m d) (hmd' : Spec.IsMesh m' d') (hne : d ≠ d') :
    (step tol (run tol ops) (.mesh (some m'))).2 = true ∧ getMesh evaluate (run tol (ops ++ [.mesh (some m')])) = none := by
  obtain ⟨i1, i2⟩ := history_consistent ht ops h
  rw [run_snoc]
  simp only [step]
  have hdm : ∀ s, (run tol ops).spline = some s → dimsMatch s m' = false := by
    intro s hs
    have := i1.dims m s hm hs
    unfold dimsMatch at this ⊢
    rw [meshDim_eq hmd] at this
    rw [meshDim_eq hmd']
    simp only [decide_eq_true_eq, decide_eq_false_iff_not] at this ⊢
    rw [this]; exact hne
  rcases setMesh_outcome (run tol ops) hmd' with ⟨s, h1, h2, h3⟩ | ⟨h1, -⟩
  · exfalso
    rcases h3 with h3 | ⟨-, h3, -⟩
    · rw [hdm s h3] at h2; cases h2
    · have := h3 m hm
      rw [meshDim_eq hmd, meshDim_eq hmd'] at this
      exact hne this
  · rw [h1]
    refine ⟨rfl, ?_⟩
    unfold getMesh
    split
    · rename_i h2 _; cases h2
    · rfl

/-- C71, where the code deviates: without its spline the object does not fall back to a default; the deformed mesh is not available. -/
theorem removed_spline_violates (evaluate : Spline K (List K) → List K → List K) (tol : K) (ops : List (Op K)) :
    getMesh evaluate (run tol (ops ++ [.spline none])) = none := by
  rw [run_snoc]
  simp only [step, setSpline]
  unfold getMesh
  split
  · rename_i h2 _; cases h2
  · rfl

/-! ### what the deformed mesh is -/

/-- the point of a spline with `n` coordinates -/
def Spec.evaluate (n : ℕ) (s : Spline K (List K)) (u : List K) : List K := (List.range n).map fun k => point s u k

/-- the mesh that is displayed right after a mesh was assigned to a new object -/
theorem default_spline_evaluates {m : List (List K)} {d : ℕ} (hm : Spec.IsMesh m d) {s : Spline K (List K)} (hs : Spec.IsDefault m d s) (u : List K)
    (hu : u.length = d) (h01 : ∀ k < d, 0 ≤ u.getD k 0 ∧ u.getD k 0 ≤ 1) : ValidSpline s ∧ InDomain s u ∧
      ∀ k < d, point s u k = (lower m).getD k 0 + u.getD k 0 * ((upper m).getD k 0 - (lower m).getD k 0) := by
  obtain ⟨b1, b2, -⟩ := bounds_spec hm
  obtain ⟨b, hb, rfl⟩ := hs
  have hr0 : ∀ i < d, (List.replicate d (0 : K)).getD i 0 = 0 := by
    intro i hi; rw [List.getD_eq_getElem _ _ (by simpa using hi)]; simp
  have hr1 : ∀ i < d, (List.replicate d (1 : K)).getD i 0 = 1 := by
    intro i hi; rw [List.getD_eq_getElem _ _ (by simpa using hi)]; simp
  obtain ⟨b', e1, e2, e3, e4, e5, e6, e7⟩ := Create.fromBounds_evaluates (List.replicate d (0 : K)) (List.replicate d 1) (lower m) (upper m) d hm.2.1 b1 b2
    (by simp) (by simp) (by intro i hi; rw [hr0 i hi, hr1 i hi]; exact zero_lt_one)
  rw [hb] at e1
  cases e1
  have hnorm : normalizeKnots b = b := by
    unfold normalizeKnots
    have : b.knotVectors.map (fun kvs => kvs.map scaleKnotVector) = b.knotVectors := by
      rw [e5, Option.map_some, List.map_map]
      congr 1
      apply List.map_congr_left
      intro i hi
      have hi := List.mem_range.1 hi
      simp only [Function.comp_apply, hr0 i hi, hr1 i hi]
      simp [scaleKnotVector]
    rw [this]
  rw [hnorm]
  obtain ⟨f1, f2⟩ := e7 u hu (by intro i hi; rw [hr0 i hi, hr1 i hi]; exact h01 i hi)
  refine ⟨e2, f1, fun k hk => ?_⟩
  rw [f2 k hk, hr0 k hk, hr1 k hk]
  simp

/-- C36: with the default deformation spline, no coordinate of a vertex moves by more than the padding. -/
theorem default_moves_little {tol : K} (ht : 0 < tol) {m : List (List K)} {d : ℕ} (hm : Spec.IsMesh m d) (padding : K) (hp : tol ≤ padding) :
    ∃ ws, getMesh (Spec.evaluate d) (run tol [.padding padding, .mesh (some m)]) = some ws ∧ ws.length = m.length ∧ ∀ i < m.length, ∀ k < d,
      abs ((ws.getD i []).getD k 0 - (m.getD i []).getD k 0) ≤ padding := by
  have hp0 : 0 < padding := lt_of_lt_of_le ht hp
  have h1 : run tol [.padding padding] = ⟨none, none, none, padding⟩ := by
    simp [run, step, setPadding, init, not_lt.2 hp, not_lt.2 hp0.le]
  have h2 : run tol [.padding padding, .mesh (some m)] = (setMesh ⟨none, none, none, padding⟩ (some m)).1 := by
    rw [show ([.padding padding, .mesh (some m)] : List (Op K)) = [.padding padding] ++ [.mesh (some m)] from rfl, run_snoc, h1]; rfl
  rw [h2]
  rcases setMesh_outcome ⟨none, none, none, padding⟩ hm with ⟨s, a1, -, a3⟩ | ⟨-, -, _, a1, -⟩
  · rw [a1]
    have hdef : Spec.IsDefault m d s := by
      rcases a3 with a3 | ⟨-, -, a3⟩
      · cases a3
      · exact a3
    refine ⟨_, rfl, by simp, ?_⟩
    intro i hi k hk
    have hmem := List.getElem_mem hi
    obtain ⟨q1, q2⟩ := coordinates_inside hm hp0 _ hmem
    obtain ⟨-, -, e⟩ := default_spline_evaluates hm hdef _ q1 (fun k hk => ⟨(q2 k hk).1.le, (q2 k hk).2.le⟩)
    rw [List.getD_eq_getElem (l := List.map _ _) _ (by simpa using hi), List.getD_eq_getElem m _ hi, List.getElem_map, List.getElem_map]
    have hk' : (Spec.evaluate d s (scaleVertex padding (lower m) (upper m) m[i])).getD k 0 = point s (scaleVertex padding (lower m) (upper m) m[i]) k := by
      unfold Spec.evaluate
      rw [List.getD_eq_getElem _ _ (by simpa using hk)]
      simp
    rw [hk', e k hk]
    obtain ⟨b1, b2, b3⟩ := bounds_spec hm
    rw [(scaleVertex_spec b1 b2 (hm.2.2 _ hmem)).2 k hk]
    obtain ⟨c1, c2⟩ := (b3 k hk).1 _ hmem
    unfold Spec.coordinate
    generalize (lower m).getD k 0 = lo at *
    generalize (upper m).getD k 0 = up at *
    generalize (m[i]).getD k 0 = x at *
    have hpos : 0 < up - lo + 2 * padding := by linarith
    have : lo + (x - (lo - padding)) / (up - lo + 2 * padding) * (up - lo) - x = padding * ((up - x) - (x - lo)) / (up - lo + 2 * padding) := by
      have hc := div_mul_cancel₀ (x - (lo - padding)) hpos.ne'
      rw [eq_div_iff hpos.ne']
      linear_combination (up - lo) * hc
    rw [this, abs_le, le_div_iff₀ hpos, div_le_iff₀ hpos]
    constructor <;> nlinarith
  · cases a1

/-- affine map of the unit interval to the range of the knots, the unit interval itself if there are none -/
def Spec.inRange (knots : Option (List K)) (t : K) : K :=
  match knots with
  | none => t
  | some kv => kv.headD 0 + t * (kv.getLastD 0 - kv.headD 0)

/-- C36: with a spline of the user, the deformed vertex is the point of this spline at the vertex, the padded bounding box being mapped affinely to the
range of the knots. -/
theorem user_spline_deforms (tol : K) {m : List (List K)} {d : ℕ} (hm : Spec.IsMesh m d) (n : ℕ) {s : Spline K (List K)} (hs : ValidSpline s)
    (hd : s.degrees.length = d) :
    getMesh (Spec.evaluate n) (run tol [.mesh (some m), .spline (some s)]) = some (m.map fun v => Spec.evaluate n s ((List.range d).map fun k =>
      Spec.inRange (s.knotVectors.map fun kvs => kvs.getD k []) (Spec.coordinate tol ((lower m).getD k 0) ((upper m).getD k 0) (v.getD k 0)))) := by
  obtain ⟨st, hst⟩ : ∃ st, run tol [.mesh (some m)] = st := ⟨_, rfl⟩
  have h0 : run tol [.mesh (some m)] = (setMesh (init tol) (some m)).1 := rfl
  have hdm : dimsMatch s m = true := by unfold dimsMatch; rw [meshDim_eq hm, hd]; simp
  have h1 : run tol [.mesh (some m), .spline (some s)] = ⟨some m, some (normalizeKnots s), some (m.map (scaleVertex tol (lower m) (upper m))), tol⟩ := by
    rw [show ([.mesh (some m), .spline (some s)] : List (Op K)) = [.mesh (some m)] ++ [.spline (some s)] from rfl, run_snoc, h0]
    rcases setMesh_outcome (init tol) hm with ⟨s', a1, -⟩ | ⟨-, -, _, a1, -⟩
    · rw [a1]
      simp [step, setSpline, hdm, init]
    · cases a1
  rw [h1]
  simp only [getMesh, List.map_map, Option.some.injEq]
  apply List.map_congr_left
  intro v hv
  simp only [Function.comp_apply]
  obtain ⟨b1, b2, -⟩ := bounds_spec hm
  obtain ⟨q1, q2⟩ := scaleVertex_spec (padding := tol) b1 b2 (hm.2.2 v hv)
  obtain ⟨-, -, -, -, -, hn⟩ := normalize_evaluates hs
  have hdl : (directions s).length = d := by
    unfold directions
    cases hk : s.knotVectors with
    | none => simp [hd]
    | some kvs => simp [hd, hs.knots kvs hk]
  have key : ∀ u : List K, u.length = d → Spec.unitParameters s u = scaleVertex tol (lower m) (upper m) v →
      Spec.evaluate n (normalizeKnots s) (scaleVertex tol (lower m) (upper m) v) = Spec.evaluate n s u := by
    intro u hu he
    rw [← he]
    unfold Spec.evaluate
    apply List.map_congr_left
    intro k _
    exact (hn u (by rw [hu, hdl])).2 k
  apply key
  · simp
  · apply List.ext_getElem
    · simp [Spec.unitParameters, hdl, q1]
    · intro k h2 h3
      have hk : k < d := by rw [q1] at h3; exact h3
      have hq := q2 k hk
      rw [List.getD_eq_getElem _ _ h3] at hq
      rw [hq]
      simp only [Spec.unitParameters, List.getElem_zipWith, List.getElem_map, List.getElem_range]
      generalize Spec.coordinate tol ((lower m).getD k 0) ((upper m).getD k 0) (v.getD k 0) = t
      have hk1 : k < (directions s).length := by omega
      have hk2 : k < s.degrees.length := by omega
      suffices H : Spec.unitParameter ((directions s)[k]'hk1) (Spec.inRange (s.knotVectors.map fun kvs => kvs.getD k []) t) = t from H
      clear h2 hq
      cases hkv : s.knotVectors with
      | none =>
        have : (directions s)[k] = ⟨s.degrees[k], none⟩ := by simp [directions, hkv]
        rw [this]
        rfl
      | some kvs =>
        have hkl : k < kvs.length := by rw [hs.knots kvs hkv]; omega
        have : (directions s)[k] = ⟨s.degrees[k], some kvs[k]⟩ := by simp [directions, hkv]
        obtain ⟨-, hlt, -⟩ := ends_lt (hs.dirs _ (List.getElem_mem (by omega : k < (directions s).length))) (by rw [this])
        rw [this]
        simp only [Spec.unitParameter, Spec.toUnit, Spec.inRange, Option.map_some]
        rw [List.getD_eq_getElem kvs _ hkl]
        have := (sub_pos.2 hlt).ne'
        field_simp
        ring

/-- a flat mesh -/
example : Spec.IsMesh ([[0, 1, 2], [1, 1, 0], [2, 1, 5]] : List (List ℚ)) 3 := ⟨by simp, by simp, by simp⟩

end Splinepy.Ffd
