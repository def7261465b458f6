import Verif.Model.MultipatchCache
import Verif.Props.Multipatch

/-!
C14: what a multipatch returns from its caches is what recomputing would return.
-/
set_option linter.unusedSectionVars false

namespace Splinepy.MultipatchCache
open Splinepy.Multipatch

variable {P C : Type} [Inhabited P]

/-! ### Specification: the derived data, from the patches and the interfaces -/

/-- faces per patch -/
def Spec.nFaces (g : Geometry P C) (ps : List P) : ℕ := 2 * g.paraDim (ps.headD default)

/-- the centers of all faces of all patches -/
def Spec.centers (g : Geometry P C) (ps : List P) : Option (List C) :=
  if ps = [] then none else some (ps.flatMap (fun p => (List.range (Spec.nFaces g ps)).map (g.center p)))

/-- all faces of all patches -/
def Spec.subPatches (g : Geometry P C) (ps : List P) : Option (List P) :=
  if ps = [] then none else some (ps.flatMap (fun p => (List.range (Spec.nFaces g ps)).map (g.face p)))

/-- the interface table: the one that is stored, or else computed from the patches -/
def Spec.table (g : Geometry P C) (s : State P C) : Option (List Int) :=
  if s.interfaces = [] then (Spec.centers g s.patches).bind (fun c => g.connect c (g.paraDim (s.patches.headD default)))
  else some s.interfaces

/-- the boundary faces in a table: all (`bid < 0`) or those with the given id -/
def Spec.ids (t : List Int) (bid : Int) : List ℕ :=
  (List.range t.length).filter (fun i => if bid < 0 then decide (t.getD i 0 < 0) else decide (t.getD i 0 = -bid))

/-- `boundary_patch_ids(bid)` -/
def Spec.boundaryIds (g : Geometry P C) (s : State P C) (bid : Int) : Option (List ℕ) := (Spec.table g s).map (fun t => Spec.ids t bid)

/-- the patches of `boundary_multipatch(bid)` -/
def Spec.boundary (g : Geometry P C) (s : State P C) (bid : Int) : Option (List P) :=
  (Spec.boundaryIds g s bid).map (fun ids => ids.map (fun i =>
    g.face (s.patches.getD (i / Spec.nFaces g s.patches) default) (i % Spec.nFaces g s.patches)))

/-- `interface_orientations()`: one row for each pair of faces `i < j` with entry `j` for face `i` -/
def Spec.orientations (g : Geometry P C) (s : State P C) : Option (List (List Int)) :=
  if s.patches = [] then none else
  (Spec.table g s).map (fun t => ((List.range t.length).filter (fun (i : ℕ) => decide ((i : Int) < t.getD i 0))).map (fun i =>
    let nF := Spec.nFaces g s.patches
    let j := (t.getD i 0).toNat
    ([i / nF, i % nF, j / nF, j % nF] : List ℕ).map Int.ofNat
      ++ g.orient (s.patches.getD (i / nF) default) (i % nF) (s.patches.getD (j / nF) default) (j % nF)))

/-! ### centers and the interface table -/

/-- the cached centers are those of the current patches -/
def CentersOk (g : Geometry P C) (s : State P C) : Prop := s.centers = [] ∨ some s.centers = Spec.centers g s.patches

/-- agreement of everything but centers, interfaces and orientations -/
structure SameRest (s s' : State P C) : Prop where
  patches : s'.patches = s.patches
  sub : s'.subMultipatch = s.subMultipatch
  pySub : s'.pySubMultipatch = s.pySubMultipatch
  ids : s'.boundaryIds = s.boundaryIds
  bnd : s'.boundaryMultipatch = s.boundaryMultipatch
  pyBnd : s'.pyBoundaryMultipatch = s.pyBoundaryMultipatch

theorem SameRest.refl (s : State P C) : SameRest s s := ⟨rfl, rfl, rfl, rfl, rfl, rfl⟩

theorem subPatchCenters_spec (g : Geometry P C) (s : State P C) (h : CentersOk g s) :
    (subPatchCenters g s).2 = Spec.centers g s.patches ∧ CentersOk g (subPatchCenters g s).1 ∧ SameRest s (subPatchCenters g s).1 ∧
    (subPatchCenters g s).1.interfaces = s.interfaces ∧ (subPatchCenters g s).1.orientations = s.orientations := by
  unfold subPatchCenters
  by_cases hc : s.centers ≠ []
  · rw [if_pos hc]
    exact ⟨h.resolve_left hc, h, SameRest.refl s, rfl, rfl⟩
  · rw [if_neg hc]
    by_cases hp : s.patches = []
    · rw [if_pos hp]; exact ⟨by simp [Spec.centers, hp], h, SameRest.refl s, rfl, rfl⟩
    · rw [if_neg hp]
      refine ⟨by simp only [Spec.centers, if_neg hp]; rfl, Or.inr ?_, ⟨rfl, rfl, rfl, rfl, rfl, rfl⟩, rfl, rfl⟩
      simp only [Spec.centers, if_neg hp]; rfl

theorem getInterfaces_spec (g : Geometry P C) (s : State P C) (h : CentersOk g s) :
    (getInterfaces g s false).2 = Spec.table g s ∧ CentersOk g (getInterfaces g s false).1 ∧ SameRest s (getInterfaces g s false).1 ∧
    Spec.table g (getInterfaces g s false).1 = Spec.table g s ∧
    (s.interfaces ≠ [] → (getInterfaces g s false).1 = s) ∧
    (∀ t, (getInterfaces g s false).2 = some t → (getInterfaces g s false).1.interfaces = t) ∧
    ((getInterfaces g s false).1.orientations = s.orientations ∨ (getInterfaces g s false).1.orientations = []) := by
  unfold getInterfaces
  by_cases hi : s.interfaces = []
  · rw [if_pos (Or.inl hi)]
    obtain ⟨h1, h2, h3, h4, h5⟩ := subPatchCenters_spec g s h
    cases hs : subPatchCenters g s with
    | mk s' o =>
      rw [hs] at h1 h2 h3 h4 h5
      simp only at h1 h2 h3 h4 h5
      have htab : Spec.table g s = o.bind (fun c => g.connect c (g.paraDim (s.patches.headD default))) := by
        unfold Spec.table; rw [if_pos hi, ← h1]
      have htab' : ∀ (s'' : State P C), s''.patches = s.patches → s''.interfaces = [] → Spec.table g s'' = Spec.table g s := by
        intro s'' e1 e2
        unfold Spec.table; rw [if_pos hi, if_pos e2, e1]
      cases o with
      | none =>
        simp only
        exact ⟨by rw [htab]; rfl, h2, h3, htab' s' h3.patches (h4.trans hi), fun hne => absurd hi hne, fun t ht => by simp at ht, Or.inl h5⟩
      | some c =>
        simp only
        cases hcon : g.connect c (g.paraDim (s.patches.headD default)) with
        | none =>
          simp only
          exact ⟨by rw [htab, Option.bind_some, hcon], h2, h3, htab' s' h3.patches (h4.trans hi), fun hne => absurd hi hne, fun t ht => by simp at ht, Or.inl h5⟩
        | some t =>
          simp only
          have ht : Spec.table g s = some t := by rw [htab, Option.bind_some, hcon]
          refine ⟨ht.symm, h2, ⟨h3.patches, h3.sub, h3.pySub, h3.ids, h3.bnd, h3.pyBnd⟩, ?_, fun hne => absurd hi hne, ?_, Or.inr trivial⟩
          · by_cases ht0 : t = []
            · apply htab'
              · exact h3.patches
              · exact ht0
            · rw [ht]; unfold Spec.table; rw [if_neg ht0]
          · intro t' ht'; simpa using ht'
  · have : ¬ (s.interfaces = [] ∨ false = true) := by simp [hi]
    rw [if_neg this]
    refine ⟨by simp [Spec.table, hi], h, SameRest.refl s, rfl, fun _ => rfl, ?_, Or.inl rfl⟩
    intro t ht; simpa using ht

theorem getInterfaces_true_spec (g : Geometry P C) (s : State P C) (h : CentersOk g s) :
    CentersOk g (getInterfaces g s true).1 ∧ SameRest s (getInterfaces g s true).1 ∧
    ((getInterfaces g s true).1.orientations = [] ∨
      (getInterfaces g s true).1.orientations = s.orientations ∧ (getInterfaces g s true).1.interfaces = s.interfaces) := by
  unfold getInterfaces
  rw [if_pos (Or.inr rfl)]
  obtain ⟨_, h2, h3, h4, h5⟩ := subPatchCenters_spec g s h
  cases hs : subPatchCenters g s with
  | mk s' o =>
    rw [hs] at h2 h3 h4 h5
    simp only at h2 h3 h4 h5
    cases o with
    | none => exact ⟨h2, h3, Or.inr ⟨h5, h4⟩⟩
    | some c =>
      simp only
      cases hcon : g.connect c (g.paraDim (s.patches.headD default)) with
      | none => exact ⟨h2, h3, Or.inr ⟨h5, h4⟩⟩
      | some t => exact ⟨h2, ⟨h3.patches, h3.sub, h3.pySub, h3.ids, h3.bnd, h3.pyBnd⟩, Or.inl rfl⟩

theorem editInterface_spec (g : Geometry P C) (s : State P C) (h : CentersOk g s) (p : ℕ) (v : Int) :
    CentersOk g (editInterface g s p v) ∧ SameRest s (editInterface g s p v) := by
  unfold editInterface
  obtain ⟨_, h2, h3, _⟩ := getInterfaces_spec g s h
  cases hg : getInterfaces g s false with
  | mk s' o =>
    rw [hg] at h2 h3
    cases o with
    | none => exact ⟨h2, h3⟩
    | some t => exact ⟨h2, ⟨h3.patches, h3.sub, h3.pySub, h3.ids, h3.bnd, h3.pyBnd⟩⟩

theorem boundaryPatchIds_frame (g : Geometry P C) (s : State P C) (h : CentersOk g s) (bid : Int) :
    CentersOk g (boundaryPatchIds g s bid).1 ∧ (boundaryPatchIds g s bid).1.patches = s.patches ∧
    Spec.table g (boundaryPatchIds g s bid).1 = Spec.table g s ∧
    (boundaryPatchIds g s bid).1.subMultipatch = s.subMultipatch ∧ (boundaryPatchIds g s bid).1.pySubMultipatch = s.pySubMultipatch ∧
    (boundaryPatchIds g s bid).1.boundaryMultipatch = s.boundaryMultipatch ∧
    (boundaryPatchIds g s bid).1.pyBoundaryMultipatch = s.pyBoundaryMultipatch ∧
    ((boundaryPatchIds g s bid).1.orientations = s.orientations ∨ (boundaryPatchIds g s bid).1.orientations = []) := by
  unfold boundaryPatchIds
  by_cases hb : bid < 0 ∧ s.boundaryIds ≠ []
  · rw [if_pos hb]; exact ⟨h, rfl, rfl, rfl, rfl, rfl, rfl, Or.inl rfl⟩
  · rw [if_neg hb]
    obtain ⟨_, h2, h3, h4, _, _, h7⟩ := getInterfaces_spec g s h
    cases hg : getInterfaces g s false with
    | mk s' o =>
      rw [hg] at h2 h3 h4 h7
      simp only at h2 h3 h4 h7
      cases o with
      | none => exact ⟨h2, h3.patches, h4, h3.sub, h3.pySub, h3.bnd, h3.pyBnd, h7⟩
      | some t =>
        simp only
        split
        · exact ⟨h2, h3.patches, h4, h3.sub, h3.pySub, h3.bnd, h3.pyBnd, h7⟩
        · exact ⟨h2, h3.patches, h4, h3.sub, h3.pySub, h3.bnd, h3.pyBnd, h7⟩

theorem boundaryMultipatch_frame (g : Geometry P C) (s : State P C) (h : CentersOk g s) (bid : Int) :
    CentersOk g (boundaryMultipatch g s bid).1 ∧ (boundaryMultipatch g s bid).1.patches = s.patches ∧
    Spec.table g (boundaryMultipatch g s bid).1 = Spec.table g s ∧
    (boundaryMultipatch g s bid).1.subMultipatch = s.subMultipatch ∧ (boundaryMultipatch g s bid).1.pySubMultipatch = s.pySubMultipatch ∧
    (boundaryMultipatch g s bid).1.pyBoundaryMultipatch = s.pyBoundaryMultipatch ∧
    ((boundaryMultipatch g s bid).1.orientations = s.orientations ∨ (boundaryMultipatch g s bid).1.orientations = []) := by
  unfold boundaryMultipatch
  cases hm : (if bid < 0 then s.boundaryMultipatch else none) with
  | some m => exact ⟨h, rfl, rfl, rfl, rfl, rfl, Or.inl rfl⟩
  | none =>
    simp only
    obtain ⟨h1, h2, h3, h4, h5, h6, h7, h8⟩ := boundaryPatchIds_frame g s h bid
    cases hg : boundaryPatchIds g s bid with
    | mk s' o =>
      rw [hg] at h1 h2 h3 h4 h5 h6 h7 h8
      cases o with
      | none => exact ⟨h1, h2, h3, h4, h5, h7, h8⟩
      | some ids =>
        simp only
        split
        · exact ⟨h1, h2, h3, h4, h5, h7, h8⟩
        · exact ⟨h1, h2, h3, h4, h5, h7, h8⟩

theorem pyBoundaryMultipatch_frame (g : Geometry P C) (s : State P C) (h : CentersOk g s) (bid : Int) :
    CentersOk g (pyBoundaryMultipatch g s bid).1 ∧ (pyBoundaryMultipatch g s bid).1.patches = s.patches ∧
    Spec.table g (pyBoundaryMultipatch g s bid).1 = Spec.table g s ∧
    (pyBoundaryMultipatch g s bid).1.subMultipatch = s.subMultipatch ∧ (pyBoundaryMultipatch g s bid).1.pySubMultipatch = s.pySubMultipatch ∧
    ((pyBoundaryMultipatch g s bid).1.orientations = s.orientations ∨ (pyBoundaryMultipatch g s bid).1.orientations = []) := by
  unfold pyBoundaryMultipatch
  obtain ⟨h1, h2, h3, h4, h5, h6, h7⟩ := boundaryMultipatch_frame g s h bid
  split
  · cases hm : s.pyBoundaryMultipatch with
    | some m => exact ⟨h, rfl, rfl, rfl, rfl, Or.inl rfl⟩
    | none =>
      simp only
      cases hg : boundaryMultipatch g s bid with
      | mk s' o =>
        rw [hg] at h1 h2 h3 h4 h5 h6 h7
        cases o with
        | none => exact ⟨h1, h2, h3, h4, h5, h7⟩
        | some ids => exact ⟨h1, h2, h3, h4, h5, h7⟩
  · exact ⟨h1, h2, h3, h4, h5, h7⟩

theorem subMultipatch_frame (g : Geometry P C) (s : State P C) :
    ∃ x y, (pySubMultipatch g s).1 = { s with subMultipatch := x, pySubMultipatch := y } := by
  unfold pySubMultipatch subMultipatch
  cases h : s.pySubMultipatch with
  | some m => exact ⟨s.subMultipatch, s.pySubMultipatch, rfl⟩
  | none =>
    simp only
    cases h2 : s.subMultipatch with
    | some m => exact ⟨s.subMultipatch, some m, rfl⟩
    | none =>
      simp only
      by_cases hp : s.patches = []
      · simp only [if_pos hp]; exact ⟨s.subMultipatch, s.pySubMultipatch, rfl⟩
      · simp only [if_neg hp]; exact ⟨_, _, rfl⟩

theorem interfaceOrientations_frame (g : Geometry P C) (s : State P C) (h : CentersOk g s) :
    CentersOk g (interfaceOrientations g s).1 ∧ SameRest s (interfaceOrientations g s).1 ∧
    Spec.table g (interfaceOrientations g s).1 = Spec.table g s := by
  unfold interfaceOrientations
  by_cases ho : s.orientations ≠ []
  · rw [if_pos ho]; exact ⟨h, SameRest.refl s, rfl⟩
  · rw [if_neg ho]
    by_cases hp : s.patches = []
    · rw [if_pos hp]; exact ⟨h, SameRest.refl s, rfl⟩
    · rw [if_neg hp]
      obtain ⟨_, h2, h3, h4, _⟩ := getInterfaces_spec g s h
      cases hg : getInterfaces g s false with
      | mk s' o =>
        rw [hg] at h2 h3 h4
        cases o with
        | none => exact ⟨h2, h3, h4⟩
        | some t => exact ⟨h2, ⟨h3.patches, h3.sub, h3.pySub, h3.ids, h3.bnd, h3.pyBnd⟩, h4⟩

theorem step_centersOk (g : Geometry P C) (s : State P C) (h : CentersOk g s) (op : Op P) : CentersOk g (step g s op) := by
  cases op with
  | clear => exact Or.inl rfl
  | setPatches p ps => exact Or.inl rfl
  | setInterfaces t =>
    simp only [step, setInterfaces]
    split
    · exact h
    · split
      · exact h
      · exact h
  | interfaces => exact (getInterfaces_spec g s h).2.1
  | recompute => exact (getInterfaces_true_spec g s h).1
  | edit p v => exact (editInterface_spec g s h p v).1
  | subPatchCenters => exact (subPatchCenters_spec g s h).2.1
  | boundaryPatchIds b => exact (boundaryPatchIds_frame g s h b).1
  | boundaryMultipatch b => exact (pyBoundaryMultipatch_frame g s h b).1
  | subMultipatch => obtain ⟨x, y, he⟩ := subMultipatch_frame g s; simp only [step]; rw [he]; exact h
  | orientations => exact (interfaceOrientations_frame g s h).1

theorem run_centersOk (g : Geometry P C) (ops : List (Op P)) : CentersOk g (run g ops) := by
  unfold run
  have : ∀ s, CentersOk g s → CentersOk g (ops.foldl (step g) s) := by
    induction ops with
    | nil => exact fun s h => h
    | cons op ops ih => intro s h; rw [List.foldl_cons]; exact ih _ (step_centersOk g s h op)
  exact this _ (Or.inl rfl)

/-- C14, without any condition on the history: the face centers are those of the current patches; the interface table read is the stored one, or the one
computed from the current patches; the faces and the patches of one particular boundary id are those of the current table. -/
theorem reads_coherent (g : Geometry P C) (ops : List (Op P)) :
    (subPatchCenters g (run g ops)).2 = Spec.centers g (run g ops).patches ∧
    (getInterfaces g (run g ops) false).2 = Spec.table g (run g ops) ∧
    ∀ bid, 0 ≤ bid →
      (boundaryPatchIds g (run g ops) bid).2 = Spec.boundaryIds g (run g ops) bid ∧
      (pyBoundaryMultipatch g (run g ops) bid).2 = Spec.boundary g (run g ops) bid := by
  have hc := run_centersOk g ops
  generalize run g ops = s at hc
  refine ⟨(subPatchCenters_spec g s hc).1, (getInterfaces_spec g s hc).1, fun bid hb => ?_⟩
  have hb' : ¬ bid < 0 := by omega
  have hids : (boundaryPatchIds g s bid).2 = Spec.boundaryIds g s bid := by
    unfold boundaryPatchIds
    rw [if_neg (by omega)]
    obtain ⟨h1, _⟩ := getInterfaces_spec g s hc
    cases hg : getInterfaces g s false with
    | mk s' o =>
      rw [hg] at h1
      simp only at h1
      unfold Spec.boundaryIds
      rw [← h1]
      cases o with
      | none => rfl
      | some t =>
        simp only [if_neg hb', Option.map_some]
        rw [boundaryPatchIds_eq_filter]; rfl
  refine ⟨hids, ?_⟩
  unfold pyBoundaryMultipatch
  rw [if_neg hb']
  unfold boundaryMultipatch
  simp only [if_neg hb']
  obtain ⟨_, h2, _⟩ := boundaryPatchIds_frame g s hc bid
  unfold Spec.boundary
  cases hg : boundaryPatchIds g s bid with
  | mk s' o =>
    rw [hg] at hids h2
    simp only at hids h2
    rw [← hids]
    cases o with
    | none => rfl
    | some ids => simp only [Option.map_some, nFaces, Spec.nFaces, h2]

/-! ### histories without interfering changes -/

/-- The condition on a history: patches are not replaced once the sub-multipatch or the boundary multipatch (all boundaries) has been read; interfaces are not
changed once the ids or the multipatch of all boundaries have been read, until the patches are replaced. The flags say what has been read. -/
def Spec.Disciplined : (sub bnd ids : Bool) → List (Op P) → Prop
  | _, _, _, [] => True
  | sub, bnd, ids, op :: ops =>
    match op with
    | .clear | .setPatches _ _ => sub = false ∧ bnd = false ∧ Spec.Disciplined sub bnd false ops
    | .setInterfaces _ | .recompute | .edit _ _ => ids = false ∧ bnd = false ∧ Spec.Disciplined sub bnd ids ops
    | .subMultipatch => Spec.Disciplined true bnd ids ops
    | .boundaryPatchIds b => Spec.Disciplined sub bnd (ids || decide (b < 0)) ops
    | .boundaryMultipatch b => Spec.Disciplined sub (bnd || decide (b < 0)) (ids || decide (b < 0)) ops
    | .interfaces | .subPatchCenters | .orientations => Spec.Disciplined sub bnd ids ops

/-- every cache is empty or has the current value; flags are raised when something has been read -/
structure Good (g : Geometry P C) (sub bnd ids : Bool) (s : State P C) : Prop where
  centers : CentersOk g s
  subm : s.subMultipatch = none ∨ s.subMultipatch = Spec.subPatches g s.patches
  pySub : s.pySubMultipatch = none ∨ s.pySubMultipatch = Spec.subPatches g s.patches
  pySubFlag : sub = false → s.pySubMultipatch = none
  idsOk : s.boundaryIds = [] ∨ some s.boundaryIds = Spec.boundaryIds g s (-1)
  idsFlag : ids = false → s.boundaryIds = []
  bndOk : s.boundaryMultipatch = none ∨ s.boundaryMultipatch = Spec.boundary g s (-1)
  pyBndOk : s.pyBoundaryMultipatch = none ∨ s.pyBoundaryMultipatch = Spec.boundary g s (-1)
  bndFlag : bnd = false → s.boundaryMultipatch = none ∧ s.pyBoundaryMultipatch = none

theorem Spec.table_congr {g : Geometry P C} {s s' : State P C} (hp : s'.patches = s.patches) (hi : s'.interfaces = s.interfaces) :
    Spec.table g s' = Spec.table g s := by
  unfold Spec.table; rw [hp, hi]

theorem Spec.ids_neg (t : List Int) (bid : Int) (hb : bid < 0) : Spec.ids t bid = Spec.ids t (-1) := by
  unfold Spec.ids; simp [hb]

theorem Spec.boundaryIds_congr {g : Geometry P C} {s s' : State P C} (h : Spec.table g s' = Spec.table g s) (bid : Int) :
    Spec.boundaryIds g s' bid = Spec.boundaryIds g s bid := by unfold Spec.boundaryIds; rw [h]

theorem Spec.boundary_congr {g : Geometry P C} {s s' : State P C} (h : Spec.table g s' = Spec.table g s) (hp : s'.patches = s.patches) (bid : Int) :
    Spec.boundary g s' bid = Spec.boundary g s bid := by unfold Spec.boundary; rw [Spec.boundaryIds_congr h, hp]

/-- reads that do not touch the caches of boundaries keep the invariant -/
theorem Good.same {g : Geometry P C} {sub bnd ids : Bool} {s s' : State P C} (h : Good g sub bnd ids s) (hc : CentersOk g s')
    (hs : SameRest s s') (ht : Spec.table g s' = Spec.table g s) : Good g sub bnd ids s' where
  centers := hc
  subm := by rw [hs.sub, hs.patches]; exact h.subm
  pySub := by rw [hs.pySub, hs.patches]; exact h.pySub
  pySubFlag := by rw [hs.pySub]; exact h.pySubFlag
  idsOk := by rw [hs.ids, Spec.boundaryIds_congr ht]; exact h.idsOk
  idsFlag := by rw [hs.ids]; exact h.idsFlag
  bndOk := by rw [hs.bnd, Spec.boundary_congr ht hs.patches]; exact h.bndOk
  pyBndOk := by rw [hs.pyBnd, Spec.boundary_congr ht hs.patches]; exact h.pyBndOk
  bndFlag := by rw [hs.bnd, hs.pyBnd]; exact h.bndFlag

/-- changes of the interfaces keep the invariant if nothing about boundaries has been read -/
theorem Good.change {g : Geometry P C} {sub : Bool} {s s' : State P C} (h : Good g sub false false s) (hc : CentersOk g s')
    (hs : SameRest s s') : Good g sub false false s' where
  centers := hc
  subm := by rw [hs.sub, hs.patches]; exact h.subm
  pySub := by rw [hs.pySub, hs.patches]; exact h.pySub
  pySubFlag := by rw [hs.pySub]; exact h.pySubFlag
  idsOk := Or.inl (by rw [hs.ids]; exact h.idsFlag rfl)
  idsFlag := by rw [hs.ids]; exact h.idsFlag
  bndOk := Or.inl (by rw [hs.bnd]; exact (h.bndFlag rfl).1)
  pyBndOk := Or.inl (by rw [hs.pyBnd]; exact (h.bndFlag rfl).2)
  bndFlag := by rw [hs.bnd, hs.pyBnd]; exact h.bndFlag

theorem boundaryPatchIds_good {g : Geometry P C} {sub bnd ids : Bool} {s : State P C} (h : Good g sub bnd ids s) (bid : Int) :
    (boundaryPatchIds g s bid).2 = Spec.boundaryIds g s bid ∧ Good g sub bnd (ids || decide (bid < 0)) (boundaryPatchIds g s bid).1 := by
  obtain ⟨f1, f2, f3, f4, f5, f6, f7, _⟩ := boundaryPatchIds_frame g s h.centers bid
  have key : (boundaryPatchIds g s bid).2 = Spec.boundaryIds g s bid ∧
      ((boundaryPatchIds g s bid).1.boundaryIds = s.boundaryIds ∨
        bid < 0 ∧ some (boundaryPatchIds g s bid).1.boundaryIds = Spec.boundaryIds g s (-1)) := by
    unfold boundaryPatchIds
    by_cases hb : bid < 0 ∧ s.boundaryIds ≠ []
    · rw [if_pos hb]
      have h1 := h.idsOk.resolve_left hb.2
      refine ⟨?_, Or.inl rfl⟩
      simp only
      rw [h1]; unfold Spec.boundaryIds
      congr 1; funext t; exact (Spec.ids_neg t bid hb.1).symm
    · rw [if_neg hb]
      obtain ⟨h1, _, h3, _⟩ := getInterfaces_spec g s h.centers
      cases hg : getInterfaces g s false with
      | mk s' o =>
        rw [hg] at h1 h3
        simp only at h1 h3
        unfold Spec.boundaryIds
        rw [← h1]
        cases o with
        | none => exact ⟨rfl, Or.inl h3.ids⟩
        | some t =>
          simp only [Option.map_some]
          rw [boundaryPatchIds_eq_filter]
          split
          · rename_i hn
            refine ⟨by simp only [Spec.ids, if_pos hn], Or.inr ⟨hn, ?_⟩⟩
            simp only
            rw [← Spec.ids_neg t bid hn]; simp only [Spec.ids, if_pos hn]
          · rename_i hn
            exact ⟨by simp only [Spec.ids, if_neg hn], Or.inl h3.ids⟩
  refine ⟨key.1, ⟨f1, ?_, ?_, ?_, ?_, ?_, ?_, ?_, ?_⟩⟩
  · rw [f4, f2]; exact h.subm
  · rw [f5, f2]; exact h.pySub
  · rw [f5]; exact h.pySubFlag
  · rw [Spec.boundaryIds_congr f3]
    rcases key.2 with h2 | ⟨_, h2⟩
    · rw [h2]; exact h.idsOk
    · exact Or.inr h2
  · intro hf
    simp only [Bool.or_eq_false_iff, decide_eq_false_iff_not] at hf
    rcases key.2 with h2 | ⟨h2, _⟩
    · rw [h2]; exact h.idsFlag hf.1
    · exact absurd h2 hf.2
  · rw [f6, Spec.boundary_congr f3 f2]; exact h.bndOk
  · rw [f7, Spec.boundary_congr f3 f2]; exact h.pyBndOk
  · rw [f6, f7]; exact h.bndFlag

theorem Spec.boundary_neg {g : Geometry P C} {s : State P C} {bid : Int} (hb : bid < 0) : Spec.boundary g s bid = Spec.boundary g s (-1) := by
  have : Spec.boundaryIds g s bid = Spec.boundaryIds g s (-1) := by
    unfold Spec.boundaryIds; congr 1; funext t; exact Spec.ids_neg t bid hb
  unfold Spec.boundary; rw [this]

theorem boundaryMultipatch_good {g : Geometry P C} {sub bnd ids : Bool} {s : State P C} (h : Good g sub bnd ids s) (bid : Int) :
    (boundaryMultipatch g s bid).2 = Spec.boundary g s bid ∧
    Good g sub (bnd || decide (bid < 0)) (ids || decide (bid < 0)) (boundaryMultipatch g s bid).1 := by
  unfold boundaryMultipatch
  have hweak : Good g sub (bnd || decide (bid < 0)) (ids || decide (bid < 0)) s := by
    refine ⟨h.centers, h.subm, h.pySub, h.pySubFlag, h.idsOk, ?_, h.bndOk, h.pyBndOk, ?_⟩
    · intro hf; exact h.idsFlag (Bool.or_eq_false_iff.1 hf).1
    · intro hf; exact h.bndFlag (Bool.or_eq_false_iff.1 hf).1
  cases hm : (if bid < 0 then s.boundaryMultipatch else none) with
  | some m =>
    simp only
    by_cases hb : bid < 0
    · rw [if_pos hb] at hm
      refine ⟨?_, hweak⟩
      rw [Spec.boundary_neg hb, ← hm]
      rcases h.bndOk with h1 | h1
      · rw [h1] at hm; simp at hm
      · exact h1
    · rw [if_neg hb] at hm; simp at hm
  | none =>
    simp only
    obtain ⟨h1, h2⟩ := boundaryPatchIds_good h bid
    obtain ⟨f1, f2, f3, _⟩ := boundaryPatchIds_frame g s h.centers bid
    cases hg : boundaryPatchIds g s bid with
    | mk s' o =>
      rw [hg] at h1 h2 f1 f2 f3
      simp only at h1 h2 f1 f2 f3
      have hw2 : Good g sub (bnd || decide (bid < 0)) (ids || decide (bid < 0)) s' := by
        refine ⟨h2.centers, h2.subm, h2.pySub, h2.pySubFlag, h2.idsOk, h2.idsFlag, h2.bndOk, h2.pyBndOk, ?_⟩
        intro hf; exact h2.bndFlag (Bool.or_eq_false_iff.1 hf).1
      unfold Spec.boundary
      rw [← h1]
      cases o with
      | none => exact ⟨rfl, hw2⟩
      | some l =>
        simp only [Option.map_some]
        by_cases hb : bid < 0
        · rw [if_pos hb]
          refine ⟨by simp only [nFaces, Spec.nFaces, f2], ?_⟩
          refine ⟨hw2.centers, hw2.subm, hw2.pySub, hw2.pySubFlag, hw2.idsOk, hw2.idsFlag, Or.inr ?_, hw2.pyBndOk, ?_⟩
          · have e : ∀ x : Option (List P), Spec.boundary g { s' with boundaryMultipatch := x } (-1) = Spec.boundary g s' (-1) := fun x => rfl
            rw [e, Spec.boundary_congr f3 f2, ← Spec.boundary_neg hb]
            unfold Spec.boundary
            rw [← h1]
            simp only [Option.map_some, nFaces, Spec.nFaces, f2]
          · intro hf
            simp only [Bool.or_eq_false_iff, decide_eq_false_iff_not] at hf
            exact absurd hb hf.2
        · rw [if_neg hb]
          exact ⟨by simp only [nFaces, Spec.nFaces, f2], hw2⟩

theorem pyBoundaryMultipatch_good {g : Geometry P C} {sub bnd ids : Bool} {s : State P C} (h : Good g sub bnd ids s) (bid : Int) :
    (pyBoundaryMultipatch g s bid).2 = Spec.boundary g s bid ∧
    Good g sub (bnd || decide (bid < 0)) (ids || decide (bid < 0)) (pyBoundaryMultipatch g s bid).1 := by
  unfold pyBoundaryMultipatch
  obtain ⟨h1, h2⟩ := boundaryMultipatch_good h bid
  obtain ⟨_, f2, f3, _⟩ := boundaryMultipatch_frame g s h.centers bid
  by_cases hb : bid < 0
  · rw [if_pos hb]
    cases hm : s.pyBoundaryMultipatch with
    | some m =>
      simp only
      refine ⟨?_, ?_⟩
      · rw [Spec.boundary_neg hb, ← hm]
        rcases h.pyBndOk with h3 | h3
        · rw [h3] at hm; simp at hm
        · exact h3
      · refine ⟨h.centers, h.subm, h.pySub, h.pySubFlag, h.idsOk, ?_, h.bndOk, h.pyBndOk, ?_⟩
        · intro hf; exact h.idsFlag (Bool.or_eq_false_iff.1 hf).1
        · intro hf; exact h.bndFlag (Bool.or_eq_false_iff.1 hf).1
    | none =>
      simp only
      cases hg : boundaryMultipatch g s bid with
      | mk s' o =>
        rw [hg] at h1 h2 f2 f3
        simp only at h1 h2 f2 f3
        cases o with
        | none => exact ⟨h1, h2⟩
        | some m =>
          refine ⟨h1, ?_⟩
          refine ⟨h2.centers, h2.subm, h2.pySub, h2.pySubFlag, h2.idsOk, h2.idsFlag, h2.bndOk, Or.inr ?_, ?_⟩
          · have e : ∀ x : Option (List P), Spec.boundary g { s' with pyBoundaryMultipatch := x } (-1) = Spec.boundary g s' (-1) := fun x => rfl
            rw [e, Spec.boundary_congr f3 f2, ← Spec.boundary_neg hb]; exact h1
          · intro hf
            simp only [Bool.or_eq_false_iff, decide_eq_false_iff_not] at hf
            exact absurd hb hf.2
  · rw [if_neg hb]; exact ⟨h1, h2⟩

theorem pySubMultipatch_good {g : Geometry P C} {sub bnd ids : Bool} {s : State P C} (h : Good g sub bnd ids s) :
    (pySubMultipatch g s).2 = Spec.subPatches g s.patches ∧ Good g true bnd ids (pySubMultipatch g s).1 := by
  unfold pySubMultipatch
  have hweak : Good g true bnd ids s :=
    ⟨h.centers, h.subm, h.pySub, fun hf => by simp at hf, h.idsOk, h.idsFlag, h.bndOk, h.pyBndOk, h.bndFlag⟩
  cases hm : s.pySubMultipatch with
  | some m =>
    simp only
    rcases h.pySub with h1 | h1
    · rw [h1] at hm; simp at hm
    · exact ⟨by rw [← hm]; exact h1, hweak⟩
  | none =>
    simp only
    unfold subMultipatch
    cases hm2 : s.subMultipatch with
    | some m =>
      simp only
      have h1 : some m = Spec.subPatches g s.patches := by
        rcases h.subm with h1 | h1
        · rw [h1] at hm2; simp at hm2
        · rw [← hm2]; exact h1
      exact ⟨h1, ⟨h.centers, h.subm, Or.inr h1, fun hf => by simp at hf, h.idsOk, h.idsFlag, h.bndOk, h.pyBndOk, h.bndFlag⟩⟩
    | none =>
      simp only
      by_cases hp : s.patches = []
      · simp only [if_pos hp]; exact ⟨by simp [Spec.subPatches, hp], hweak⟩
      · simp only [if_neg hp]
        have h1 : some (s.patches.flatMap (fun p => (List.range (nFaces g s)).map (g.face p))) = Spec.subPatches g s.patches := by
          unfold Spec.subPatches; rw [if_neg hp]; rfl
        exact ⟨h1, ⟨h.centers, Or.inr h1, Or.inr h1, fun hf => by simp at hf, h.idsOk, h.idsFlag, h.bndOk, h.pyBndOk, h.bndFlag⟩⟩

theorem run_good (g : Geometry P C) (ops : List (Op P)) (sub bnd ids : Bool) (s : State P C) (h : Good g sub bnd ids s)
    (hd : Spec.Disciplined sub bnd ids ops) : ∃ sub' bnd' ids', Good g sub' bnd' ids' (ops.foldl (step g) s) := by
  induction ops generalizing sub bnd ids s with
  | nil => exact ⟨_, _, _, h⟩
  | cons op ops ih =>
    rw [List.foldl_cons]
    cases op with
    | clear =>
      obtain ⟨h1, h2, h3⟩ := hd
      refine ih _ _ _ _ ?_ h3
      subst h1 h2
      exact ⟨Or.inl rfl, Or.inl rfl, Or.inl (h.pySubFlag rfl), h.pySubFlag, Or.inl rfl, fun _ => rfl, Or.inl rfl, Or.inl (h.bndFlag rfl).2,
        fun _ => ⟨rfl, (h.bndFlag rfl).2⟩⟩
    | setPatches p ps =>
      obtain ⟨h1, h2, h3⟩ := hd
      refine ih _ _ _ _ ?_ h3
      subst h1 h2
      exact ⟨Or.inl rfl, Or.inl rfl, Or.inl (h.pySubFlag rfl), h.pySubFlag, Or.inl rfl, fun _ => rfl, Or.inl rfl, Or.inl (h.bndFlag rfl).2,
        fun _ => ⟨rfl, (h.bndFlag rfl).2⟩⟩
    | setInterfaces t =>
      obtain ⟨h1, h2, h3⟩ := hd
      subst h1 h2
      refine ih _ _ _ _ ?_ h3
      simp only [step, setInterfaces]
      split
      · exact h
      · split
        · exact h
        · exact h.change h.centers ⟨rfl, rfl, rfl, rfl, rfl, rfl⟩
    | interfaces =>
      obtain ⟨_, h2, h3, h4, _⟩ := getInterfaces_spec g s h.centers
      exact ih _ _ _ _ (h.same h2 h3 h4) hd
    | recompute =>
      obtain ⟨h1, h2, h3⟩ := hd
      subst h1 h2
      obtain ⟨a, b, _⟩ := getInterfaces_true_spec g s h.centers
      exact ih _ _ _ _ (h.change a b) h3
    | edit p v =>
      obtain ⟨h1, h2, h3⟩ := hd
      subst h1 h2
      obtain ⟨a, b⟩ := editInterface_spec g s h.centers p v
      exact ih _ _ _ _ (h.change a b) h3
    | subPatchCenters =>
      obtain ⟨_, h2, h3, h4, _⟩ := subPatchCenters_spec g s h.centers
      exact ih _ _ _ _ (h.same h2 h3 (Spec.table_congr h3.patches h4)) hd
    | boundaryPatchIds b => exact ih _ _ _ _ (boundaryPatchIds_good h b).2 hd
    | boundaryMultipatch b => exact ih _ _ _ _ (pyBoundaryMultipatch_good h b).2 hd
    | subMultipatch => exact ih _ _ _ _ (pySubMultipatch_good h).2 hd
    | orientations =>
      obtain ⟨h1, h2, h3⟩ := interfaceOrientations_frame g s h.centers
      exact ih _ _ _ _ (h.same h1 h2 h3) hd

/-- C14 for histories of any length without interfering changes: every read returns what recomputing would return. Missing: patches that are replaced after the
sub-multipatch or the boundary multipatch has been read, and interfaces that are changed after the boundaries have been read, for which it is false. -/
theorem caches_coherent_partial (g : Geometry P C) (ops : List (Op P)) (hd : Spec.Disciplined false false false ops) (bid : Int) :
    (subPatchCenters g (run g ops)).2 = Spec.centers g (run g ops).patches ∧
    (getInterfaces g (run g ops) false).2 = Spec.table g (run g ops) ∧
    (boundaryPatchIds g (run g ops) bid).2 = Spec.boundaryIds g (run g ops) bid ∧
    (pyBoundaryMultipatch g (run g ops) bid).2 = Spec.boundary g (run g ops) bid ∧
    (pySubMultipatch g (run g ops)).2 = Spec.subPatches g (run g ops).patches := by
  obtain ⟨a, b, c, h⟩ := run_good g ops false false false {} ⟨Or.inl rfl, Or.inl rfl, Or.inl rfl, fun _ => rfl, Or.inl rfl, fun _ => rfl, Or.inl rfl, Or.inl rfl,
    fun _ => ⟨rfl, rfl⟩⟩ hd
  exact ⟨(subPatchCenters_spec g _ h.centers).1, (getInterfaces_spec g _ h.centers).1, (boundaryPatchIds_good h bid).1, (pyBoundaryMultipatch_good h bid).1,
    (pySubMultipatch_good h).1⟩

/-- a toy geometry: a patch is a number, a face of patch `p` is `10 p + i`, the center as well; no face has a neighbour -/
def toy : Geometry ℕ ℕ where
  paraDim _ := 1
  face p i := 10 * p + i
  center p i := 10 * p + i
  connect c _ := some (c.map (fun _ => -1))
  orient _ _ _ _ := []

/-- non-vacuity: a history with reads, a change of the interfaces, and new patches -/
example : Spec.Disciplined (P := ℕ) false false false
      [.setPatches 1 [2], .boundaryPatchIds 1, .interfaces, .setPatches 3 [4], .setInterfaces [-1, 2, 1, -2], .edit 0 (-5), .boundaryMultipatch (-1), .subMultipatch]
    ∧ (pyBoundaryMultipatch toy (run toy [.setPatches 1 [2], .boundaryPatchIds 1, .interfaces, .setPatches 3 [4], .setInterfaces [-1, 2, 1, -2], .edit 0 (-5),
        .boundaryMultipatch (-1), .subMultipatch]) (-1)).2 = some [30, 41] := by
  refine ⟨by simp [Spec.Disciplined], by decide⟩

/-! ### violations -/

/-- C14 fails: after `boundary_patch_ids()`, setting interfaces is not noticed; the ids still list the faces that have been connected in the meantime. -/
theorem stale_boundary_ids_violates :
    ∃ ops : List (Op ℕ), (boundaryPatchIds toy (run toy ops) (-1)).2 ≠ Spec.boundaryIds toy (run toy ops) (-1) :=
  ⟨[.setPatches 1 [2], .boundaryPatchIds (-1), .setInterfaces [-1, 2, 1, -1]], by decide⟩

/-- C14 fails: after `boundary_multipatch()`, setting interfaces is not noticed. -/
theorem stale_boundary_multipatch_violates :
    ∃ ops : List (Op ℕ), (pyBoundaryMultipatch toy (run toy ops) (-1)).2 ≠ Spec.boundary toy (run toy ops) (-1) :=
  ⟨[.setPatches 1 [2], .boundaryMultipatch (-1), .setInterfaces [-1, 2, 1, -1]], by decide⟩

/-- C14 fails: new patches, but `boundary_multipatch()` returns the boundaries of the old ones. -/
theorem stale_after_set_patches_violates :
    ∃ ops : List (Op ℕ), (pyBoundaryMultipatch toy (run toy ops) (-1)).2 ≠ Spec.boundary toy (run toy ops) (-1) ∧
      (pySubMultipatch toy (run toy ops)).2 ≠ Spec.subPatches toy (run toy ops).patches :=
  ⟨[.setPatches 1 [2], .boundaryMultipatch (-1), .subMultipatch, .setPatches 3 [4]], by decide, by decide⟩

/-- C14 fails even for a multipatch without patches: `clear()` does not remove the sub-multipatch. -/
theorem stale_after_clear_violates :
    ∃ ops : List (Op ℕ), (run toy ops).patches = [] ∧ (pySubMultipatch toy (run toy ops)).2 = some [10, 11] :=
  ⟨[.setPatches 1 [], .subMultipatch, .clear], by decide, by decide⟩

/-! ### orientations -/

/-- every assignment to an entry of the interface table changes a boundary id to a boundary id (as C13 demands) -/
def Spec.EditsBoundaries (g : Geometry P C) : State P C → List (Op P) → Prop
  | _, [] => True
  | s, op :: ops =>
    (match op with
      | .edit p v => ∀ t, Spec.table g s = some t → v = t.getD p 0 ∨ t.getD p 0 < 0 ∧ v < 0
      | _ => True) ∧ Spec.EditsBoundaries g (step g s op) ops

theorem orientationRows_spec (g : Geometry P C) (ps : List P) (nF : ℕ) (t : List Int) :
    orientationRows g ps nF t = ((List.range t.length).filter (fun (i : ℕ) => decide ((i : Int) < t.getD i 0))).map (fun i =>
      let j := (t.getD i 0).toNat
      ([i / nF, i % nF, j / nF, j % nF] : List ℕ).map Int.ofNat
        ++ g.orient (ps.getD (i / nF) default) (i % nF) (ps.getD (j / nF) default) (j % nF)) := by
  unfold orientationRows
  have : (fun (i : ℕ) => decide (t.getD i 0 ≥ 0) && decide (t.getD i 0 > (i : Int))) = (fun (i : ℕ) => decide ((i : Int) < t.getD i 0)) := by
    funext i
    rw [← Bool.decide_and]
    apply decide_eq_decide.2
    constructor
    · exact fun h => h.2
    · intro h; exact ⟨by omega, h⟩
  rw [this]
  rfl

/-- the rows do not depend on the boundary ids -/
theorem orientationRows_edit (g : Geometry P C) (ps : List P) (nF : ℕ) (t : List Int) (p : ℕ) (v : Int)
    (h : v = t.getD p 0 ∨ t.getD p 0 < 0 ∧ v < 0) : orientationRows g ps nF (t.set p v) = orientationRows g ps nF t := by
  rw [orientationRows_spec, orientationRows_spec, List.length_set]
  have e : ∀ i : ℕ, i < t.length → ((i : Int) < (t.set p v).getD i 0 ↔ (i : Int) < t.getD i 0) ∧ ((i : Int) < t.getD i 0 → (t.set p v).getD i 0 = t.getD i 0) := by
    intro i hi
    rw [getD_set_int]
    by_cases hp : p = i ∧ i < t.length
    · rw [if_pos hp]
      obtain ⟨rfl, _⟩ := hp
      rcases h with h | h
      · rw [h]; simp
      · constructor
        · constructor <;> intro <;> omega
        · intro; omega
    · rw [if_neg hp]; simp
  have hf : (List.range t.length).filter (fun (i : ℕ) => decide ((i : Int) < (t.set p v).getD i 0))
      = (List.range t.length).filter (fun (i : ℕ) => decide ((i : Int) < t.getD i 0)) := by
    apply List.filter_congr
    intro i hi
    exact decide_eq_decide.2 (e i (List.mem_range.1 hi)).1
  rw [hf]
  apply List.map_congr_left
  intro i hi
  rw [List.mem_filter, List.mem_range, decide_eq_true_eq] at hi
  simp only [(e i hi.1).2 hi.2]

/-- cached orientations have the current value -/
def OrientOk (g : Geometry P C) (s : State P C) : Prop := s.orientations = [] ∨ some s.orientations = Spec.orientations g s

theorem Spec.orientations_congr {g : Geometry P C} {s s' : State P C} (h : Spec.table g s' = Spec.table g s) (hp : s'.patches = s.patches) :
    Spec.orientations g s' = Spec.orientations g s := by unfold Spec.orientations; rw [h, hp]

theorem OrientOk.same {g : Geometry P C} {s s' : State P C} (h : OrientOk g s) (ht : Spec.table g s' = Spec.table g s) (hp : s'.patches = s.patches)
    (ho : s'.orientations = s.orientations ∨ s'.orientations = []) : OrientOk g s' := by
  rcases ho with ho | ho
  · unfold OrientOk; rw [ho, Spec.orientations_congr ht hp]; exact h
  · exact Or.inl ho

theorem interfaceOrientations_spec (g : Geometry P C) (s : State P C) (hc : CentersOk g s) (ho : OrientOk g s) :
    (interfaceOrientations g s).2 = Spec.orientations g s ∧ OrientOk g (interfaceOrientations g s).1 := by
  unfold interfaceOrientations
  by_cases h1 : s.orientations ≠ []
  · rw [if_pos h1]; exact ⟨ho.resolve_left h1, ho⟩
  · rw [if_neg h1]
    by_cases hp : s.patches = []
    · rw [if_pos hp]; exact ⟨by simp [Spec.orientations, hp], ho⟩
    · rw [if_neg hp]
      obtain ⟨g1, _, g3, g4, _, _, g7⟩ := getInterfaces_spec g s hc
      cases hg : getInterfaces g s false with
      | mk s' o =>
        rw [hg] at g1 g3 g4 g7
        simp only at g1 g3 g4 g7
        have hnil : s'.orientations = [] := by
          rcases g7 with h | h
          · rw [h]; simpa using h1
          · exact h
        cases o with
        | none =>
          refine ⟨?_, Or.inl hnil⟩
          unfold Spec.orientations
          rw [if_neg hp, ← g1]; rfl
        | some t =>
          have e : some (orientationRows g s'.patches (nFaces g s') t) = Spec.orientations g s := by
            unfold Spec.orientations
            rw [if_neg hp, ← g1, orientationRows_spec]
            simp only [Option.map_some, nFaces, Spec.nFaces, g3.patches]
          refine ⟨e, Or.inr ?_⟩
          simp only
          rw [e]
          exact (Spec.orientations_congr g4 g3.patches).symm

/-- C14, orientations: for every history in which assignments to the interface table keep interfaces and boundary faces as they are, `interface_orientations`
returns one row for each interface of the current table, and nothing else. -/
theorem orientations_coherent_partial (g : Geometry P C) (ops : List (Op P)) (he : Spec.EditsBoundaries g {} ops) :
    (interfaceOrientations g (run g ops)).2 = Spec.orientations g (run g ops) := by
  have key : ∀ (s : State P C), CentersOk g s → OrientOk g s → Spec.EditsBoundaries g s ops → OrientOk g (ops.foldl (step g) s) := by
    clear he
    induction ops with
    | nil => exact fun s _ h _ => h
    | cons op ops ih =>
      intro s hc ho he
      rw [List.foldl_cons]
      refine ih _ (step_centersOk g s hc op) ?_ he.2
      cases op with
      | clear => exact Or.inl rfl
      | setPatches p ps => exact Or.inl rfl
      | setInterfaces t =>
        simp only [step, setInterfaces]
        split
        · exact ho
        · split
          · exact ho
          · exact Or.inl rfl
      | interfaces =>
        obtain ⟨_, _, h3, h4, _, _, h7⟩ := getInterfaces_spec g s hc
        exact ho.same h4 h3.patches h7
      | recompute =>
        obtain ⟨_, h2, h3⟩ := getInterfaces_true_spec g s hc
        rcases h3 with h3 | ⟨h3, h4⟩
        · exact Or.inl h3
        · exact ho.same (Spec.table_congr h2.patches h4) h2.patches (Or.inl h3)
      | edit p v =>
        simp only [step, editInterface]
        obtain ⟨g1, _, g3, g4, g5, g6, g7⟩ := getInterfaces_spec g s hc
        have hv := he.1
        simp only at hv
        cases hg : getInterfaces g s false with
        | mk s' o =>
          rw [hg] at g1 g3 g4 g5 g6 g7
          simp only at g1 g3 g4 g5 g6 g7
          cases o with
          | none => exact ho.same g4 g3.patches g7
          | some t =>
            simp only
            by_cases hnil : s'.orientations = []
            · exact Or.inl hnil
            · right
              have hso : s'.orientations = s.orientations := g7.resolve_right hnil
              have ho' := ho.resolve_left (by rw [← hso]; exact hnil)
              have ht : Spec.table g s = some t := g1.symm
              by_cases ht0 : t = []
              · subst ht0
                simp only [List.set_nil]
                have : s'.interfaces = [] := g6 [] rfl
                rw [hso, ho']
                unfold Spec.orientations Spec.table
                simp only [if_true, g3.patches]
                by_cases hs : s.interfaces = []
                · simp only [hs, if_true]
                · have := g5 hs
                  rw [this] at g6
                  exact absurd (g6 [] rfl) hs
              · have htab : Spec.table g { s' with interfaces := t.set p v } = some (t.set p v) := by
                  unfold Spec.table; rw [if_neg]; intro h0; exact ht0 (by simpa using h0)
                refine (congrArg some hso).trans (ho'.trans ?_)
                unfold Spec.orientations
                rw [htab, ht]
                simp only [g3.patches]
                split
                · rfl
                · simp only [Option.map_some]
                  have := orientationRows_edit g s.patches (Spec.nFaces g s.patches) t p v (hv t ht)
                  rw [orientationRows_spec, orientationRows_spec] at this
                  rw [this]
      | subPatchCenters =>
        obtain ⟨_, _, h3, h4, h5⟩ := subPatchCenters_spec g s hc
        exact ho.same (Spec.table_congr h3.patches h4) h3.patches (Or.inl h5)
      | boundaryPatchIds b =>
        obtain ⟨_, h2, h3, _, _, _, _, h8⟩ := boundaryPatchIds_frame g s hc b
        exact ho.same h3 h2 h8
      | boundaryMultipatch b =>
        obtain ⟨_, h2, h3, _, _, h8⟩ := pyBoundaryMultipatch_frame g s hc b
        exact ho.same h3 h2 h8
      | subMultipatch =>
        obtain ⟨x, y, he⟩ := subMultipatch_frame g s
        simp only [step]; rw [he]; exact ho
      | orientations => exact (interfaceOrientations_spec g s hc ho).2
  exact (interfaceOrientations_spec g _ (run_centersOk g ops) (key {} (Or.inl rfl) (Or.inl rfl) he)).1

/-- non-vacuity: boundary ids are edited after the orientations have been read -/
example : Spec.EditsBoundaries toy {} [.setPatches 1 [2], .setInterfaces [-1, 2, 1, -1], .orientations, .edit 3 (-4)] ∧
    (interfaceOrientations toy (run toy [.setPatches 1 [2], .setInterfaces [-1, 2, 1, -1], .orientations, .edit 3 (-4)])).2 = some [[0, 1, 1, 0]] := by
  refine ⟨⟨trivial, trivial, trivial, ?_, trivial⟩, by decide⟩
  intro t ht
  have : some t = some [-1, 2, 1, -1] := ht.symm
  cases this
  right; decide

/-- C14 fails for assignments that disconnect faces: the orientations are those of the old table. -/
theorem stale_orientations_violates :
    ∃ ops : List (Op ℕ), (interfaceOrientations toy (run toy ops)).2 ≠ Spec.orientations toy (run toy ops) :=
  ⟨[.setPatches 1 [2], .setInterfaces [-1, 2, 1, -1], .orientations, .edit 1 (-1), .edit 2 (-1)], by decide⟩

end Splinepy.MultipatchCache
