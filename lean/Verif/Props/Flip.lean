import Verif.Props.Permute
import Mathlib.Algebra.Order.Field.Basic
import Mathlib.Tactic.Linarith

/-!
C41: flipping parametric axes.
-/
namespace Splinepy.Index
open Splinepy.Spec

/-- Mirrored grid coordinates: reversed along the axes `ax`. -/
def Spec.mirror (dims ax cs : List ℕ) : List ℕ :=
  cs.mapIdx (fun i c => if i ∈ ax then dims.getD i 0 - 1 - c else c)

/-- Valid knot vector for the degree: at least `2 * (degree + 1)` knots (what construction enforces). -/
def Spec.EnoughKnots {K : Type*} (deg : ℕ) (kv : List K) : Prop := 2 * (deg + 1) ≤ kv.length

/-! #### knot vectors -/

theorem flipKnots_length {K : Type*} [Field K] [Inhabited K] (deg : ℕ) (kv : List K) : (flipKnots deg kv).length = kv.length := by
  simp [flipKnots]

/-- C41: knot number `k` of the flipped knot vector is the mirrored knot `lower + upper - knot[last - k]`. -/
theorem flipKnots_get {K : Type*} [Field K] [Inhabited K] (deg : ℕ) (kv : List K) (k : ℕ) (hk : k < kv.length) :
    (flipKnots deg kv).getD k default =
      kv.getD deg default + kv.getD (kv.length - deg - 1) default - kv.getD (kv.length - 1 - k) default := by
  unfold flipKnots bounds
  simp only [List.getD_eq_getElem?_getD, List.getElem?_map]
  rw [List.getElem?_reverse hk, List.getElem?_eq_getElem (show kv.length - 1 - k < kv.length by omega)]
  simp

/-- C41: the parametric bounds do not change. -/
theorem flipKnots_bounds {K : Type*} [Field K] [Inhabited K] (deg : ℕ) (kv : List K) (h : Spec.EnoughKnots deg kv) :
    bounds (flipKnots deg kv) deg = bounds kv deg := by
  unfold Spec.EnoughKnots at h
  have h1 := flipKnots_get deg kv deg (by omega)
  have h2 := flipKnots_get deg kv (kv.length - deg - 1) (by omega)
  have e1 : kv.length - 1 - deg = kv.length - deg - 1 := by omega
  have e2 : kv.length - 1 - (kv.length - deg - 1) = deg := by omega
  rw [e1] at h1
  rw [e2] at h2
  have e3 : bounds (flipKnots deg kv) deg =
      ((flipKnots deg kv).getD deg default, (flipKnots deg kv).getD (kv.length - deg - 1) default) := by
    unfold bounds; rw [flipKnots_length]
  rw [e3, h1, h2]
  unfold bounds
  ext <;> simp

/-- C41: flipping a knot vector twice restores it. -/
theorem flipKnots_involutive {K : Type*} [Field K] [Inhabited K] (deg : ℕ) (kv : List K) (h : Spec.EnoughKnots deg kv) :
    flipKnots deg (flipKnots deg kv) = kv := by
  have hb := flipKnots_bounds deg kv h
  apply List.ext_getElem (by simp [flipKnots_length])
  intro k h1 h2
  have hu : flipKnots deg (flipKnots deg kv) =
      (flipKnots deg kv).reverse.map (fun k => (bounds kv deg).1 + (bounds kv deg).2 - k) := by
    conv_lhs => unfold flipKnots
    simp only
    have : (List.map (fun k => (bounds kv deg).1 + (bounds kv deg).2 - k) kv.reverse) = flipKnots deg kv := rfl
    rw [this, hb]
  have e : (flipKnots deg (flipKnots deg kv))[k]? = some kv[k] := by
    rw [hu, List.getElem?_map, List.getElem?_reverse (by rw [flipKnots_length]; exact h2), flipKnots_length]
    have h3 : kv.length - 1 - (kv.length - 1 - k) = k := by omega
    have h4 : (flipKnots deg kv)[kv.length - 1 - k]? = some ((bounds kv deg).1 + (bounds kv deg).2 - kv[k]) := by
      unfold flipKnots
      simp only [List.getElem?_map]
      rw [List.getElem?_reverse (by omega), h3, List.getElem?_eq_getElem h2]
      rfl
    rw [h4]
    simp
  rw [List.getElem?_eq_getElem h1] at e
  simpa using e

/-- C41: a non-decreasing knot vector stays non-decreasing. -/
theorem flipKnots_sorted {K : Type*} [Field K] [LinearOrder K] [IsStrictOrderedRing K] [Inhabited K] (deg : ℕ) (kv : List K)
    (h : kv.Pairwise (· ≤ ·)) : (flipKnots deg kv).Pairwise (· ≤ ·) := by
  unfold flipKnots
  simp only
  rw [List.pairwise_map, List.pairwise_reverse]
  exact h.imp (by intro a b hab; linarith)

/-! #### loop over axes -/

/-- knot vectors after flipping the axes of the list, one after another -/
def flipFold {K : Type*} [Field K] [Inhabited K] (degrees : List ℕ) (ax : List ℕ) (ks : List (List K)) : List (List K) :=
  ax.foldl (fun ks i => ks.set i (flipKnots (degrees.getD i 0) (ks.getD i []))) ks

theorem flipLoop_eq {K : Type*} [Field K] [Inhabited K] (degrees : List ℕ) (axes : List ℤ) (rev : List Bool)
    (kvs : Option (List (List K))) (ax : List ℕ) (h : axes.mapM (pyIndex degrees.length) = some ax) :
    flipLoop degrees axes rev kvs = some (ax.foldl (fun r i => r.set i true) rev, kvs.map (flipFold degrees ax)) := by
  induction axes generalizing rev kvs ax with
  | nil =>
    simp at h; subst h
    cases kvs <;> simp [flipLoop, flipFold]
  | cons a axes ih =>
    rw [List.mapM_cons] at h
    cases hi : pyIndex degrees.length a with
    | none => rw [hi] at h; simp at h
    | some i =>
      rw [hi] at h
      cases hr : axes.mapM (pyIndex degrees.length) with
      | none => rw [hr] at h; simp at h
      | some ax' =>
        rw [hr] at h
        simp only [Option.pure_def, Option.bind_eq_bind, Option.bind_some, Option.some.injEq] at h
        subst h
        unfold flipLoop
        rw [hi]
        simp only
        rw [ih _ _ _ hr]
        cases kvs <;> simp [flipFold]

theorem flipLoop_none {K : Type*} [Field K] [Inhabited K] (degrees : List ℕ) (axes : List ℤ) (rev : List Bool)
    (kvs : Option (List (List K))) (h : axes.mapM (pyIndex degrees.length) = none) :
    flipLoop degrees axes rev kvs = none := by
  induction axes generalizing rev kvs with
  | nil => simp at h
  | cons a axes ih =>
    rw [List.mapM_cons] at h
    unfold flipLoop
    cases hi : pyIndex degrees.length a with
    | none => rfl
    | some i =>
      rw [hi] at h
      simp only
      apply ih
      cases hr : axes.mapM (pyIndex degrees.length) with
      | none => rfl
      | some ax' => rw [hr] at h; simp at h

theorem revFold_get (ax : List ℕ) (rev : List Bool) (i : ℕ) (hi : i < rev.length) :
    (ax.foldl (fun r i => r.set i true) rev)[i]? = some (if i ∈ ax then true else rev.getD i false) := by
  induction ax generalizing rev with
  | nil => simp [List.getElem?_eq_getElem hi]
  | cons a ax ih =>
    rw [List.foldl_cons, ih _ (by simpa using hi)]
    by_cases h1 : i ∈ ax
    · simp [h1]
    · by_cases h2 : i = a
      · subst h2; simp [List.getElem?_set_self hi, h1]
      · have : (rev.set a true).getD i false = rev.getD i false := by
          rw [List.getD_eq_getElem?_getD, List.getElem?_set_ne (fun h => h2 h.symm), ← List.getD_eq_getElem?_getD]
        rw [this]; simp [h1, h2]

theorem revFold_length (ax : List ℕ) (rev : List Bool) : (ax.foldl (fun r i => r.set i true) rev).length = rev.length := by
  induction ax generalizing rev with
  | nil => rfl
  | cons a ax ih => rw [List.foldl_cons, ih]; simp

theorem flipFold_length {K : Type*} [Field K] [Inhabited K] (degrees ax : List ℕ) (ks : List (List K)) :
    (flipFold degrees ax ks).length = ks.length := by
  induction ax generalizing ks with
  | nil => rfl
  | cons a ax ih =>
    have : flipFold degrees (a :: ax) ks = flipFold degrees ax (ks.set a (flipKnots (degrees.getD a 0) (ks.getD a []))) := rfl
    rw [this, ih]; simp

theorem flipFold_get {K : Type*} [Field K] [Inhabited K] (degrees ax : List ℕ) (ks : List (List K)) (hn : ax.Nodup) (i : ℕ)
    (hi : i < ks.length) :
    (flipFold degrees ax ks)[i]? = some (if i ∈ ax then flipKnots (degrees.getD i 0) ks[i] else ks[i]) := by
  induction ax generalizing ks with
  | nil => simp [flipFold, List.getElem?_eq_getElem hi]
  | cons a ax ih =>
    rw [List.nodup_cons] at hn
    have e : flipFold degrees (a :: ax) ks = flipFold degrees ax (ks.set a (flipKnots (degrees.getD a 0) (ks.getD a []))) := rfl
    rw [e, ih _ hn.2 (by simpa using hi)]
    by_cases h2 : i = a
    · subst h2
      rw [if_neg hn.1, if_pos (by simp)]
      simp [List.getElem?_eq_getElem hi]
    · rw [List.getElem_set_ne (fun h => h2 h.symm)]
      simp [h2]

theorem flipFold_mem_length {K : Type*} [Field K] [Inhabited K] (degrees ax : List ℕ) (ks : List (List K)) :
    (flipFold degrees ax ks).map List.length = ks.map List.length := by
  induction ax generalizing ks with
  | nil => rfl
  | cons a ax ih =>
    have e : flipFold degrees (a :: ax) ks = flipFold degrees ax (ks.set a (flipKnots (degrees.getD a 0) (ks.getD a []))) := rfl
    rw [e, ih]
    apply List.ext_getElem
    · simp
    · intro i h1 h2
      simp only [List.getElem_map]
      by_cases h : a = i
      · subst h
        simp at h2
        simp [flipKnots_length, List.getElem?_eq_getElem h2]
      · rw [List.getElem_set_ne h]

theorem pyIndex_lt {n : ℕ} {a : ℤ} {i : ℕ} (h : pyIndex n a = some i) : i < n := by
  unfold pyIndex at h
  split at h
  · simp at h; omega
  · split at h
    · simp at h; omega
    · simp at h

/-- Positions of the mirrored control points. -/
theorem mirror_ids (dims ax : List ℕ) :
    let sel := List.zipWith (fun (b : Bool) r => if b then (List.range r).reverse else List.range r)
      (ax.foldl (fun r i => r.set i true) (dims.map (fun _ => false))) dims
    ∃ ids, multiIndexGet dims sel = some ids ∧ ids.length = dims.prod ∧
      ∀ cs, InGrid dims cs → ids[flat dims cs]? = some (flat dims (Spec.mirror dims ax cs)) := by
  intro sel
  have hlen : sel.length = dims.length := by simp [sel, revFold_length]
  have hsel : ∀ i (hi : i < dims.length), sel[i]'(by omega) =
      if i ∈ ax then (List.range dims[i]).reverse else List.range dims[i] := by
    intro i hi
    simp only [sel, List.getElem_zipWith]
    have h1 := revFold_get ax (dims.map (fun _ => false)) i (by simpa using hi)
    rw [List.getElem?_eq_getElem (by simpa [revFold_length] using hi)] at h1
    simp only [Option.some.injEq] at h1
    rw [h1]
    by_cases h : i ∈ ax <;> simp [h, hi]
  have hshape : sel.map List.length = dims := by
    apply List.ext_getElem
    · simp [hlen]
    · intro i h1 h2
      rw [List.getElem_map, hsel i h2]; split <;> simp
  have hv : Spec.ValidSel dims sel := by
    unfold Spec.ValidSel
    rw [List.forall₂_iff_get]
    refine ⟨hlen, fun i h1 h2 => ?_⟩
    simp only [List.get_eq_getElem]
    rw [hsel i h2]
    intro c hc
    split at hc <;> simpa using hc
  refine ⟨_, multi_index_get dims sel hv, ?_, fun cs hcs => ?_⟩
  · have := congrArg List.length (digits_rows sel)
    rw [hshape] at this
    simp at this
    simp [this]
  · have hk := flat_lt _ _ hcs
    have h1 := congrArg (fun l : List (List (Option ℕ)) => l[flat dims cs]?) (digits_rows sel)
    simp only [hshape, List.getElem?_map, List.getElem?_range hk, Option.map_some] at h1
    rw [digits_flat _ _ hcs] at h1
    rw [List.getElem?_map]
    cases hx : (firstFastest sel)[flat dims cs]? with
    | none => rw [hx] at h1; simp at h1
    | some x =>
      rw [hx] at h1
      simp only [Option.map_some, Option.some.injEq] at h1
      simp only [Option.map_some, Option.some.injEq]
      congr 1
      obtain ⟨hlc, hlt⟩ := inGrid_iff.1 hcs
      have hxl : x.length = cs.length := by
        have := congrArg List.length h1; simp at this; omega
      apply List.ext_getElem
      · simp [Spec.mirror, hxl]
      · intro i h2 h3
        have hi : i < dims.length := by omega
        have h4 := congrArg (fun l : List (Option ℕ) => l[i]?) h1
        simp only [List.getElem?_zipWith, List.getElem?_map, List.getElem?_eq_getElem h2,
          List.getElem?_eq_getElem (show i < sel.length by omega), List.getElem?_eq_getElem (show i < cs.length by omega),
          Option.map_some, Option.some.injEq] at h4
        rw [hsel i hi] at h4
        have hci := hlt i hi
        simp only [Spec.mirror, List.getElem_mapIdx, List.getD_eq_getElem?_getD, List.getElem?_eq_getElem hi, Option.getD_some]
        split at h4
        · rename_i ha
          rw [List.getElem?_reverse (by simpa using hci), List.length_range, List.getElem?_range (by omega)] at h4
          simp only [Option.some.injEq] at h4
          rw [if_pos ha, ← h4]
        · rename_i ha
          rw [List.getElem?_range hci] at h4
          simp only [Option.some.injEq] at h4
          rw [if_neg ha, ← h4]

theorem mirror_inGrid {dims cs : List ℕ} (ax : List ℕ) (h : InGrid dims cs) : InGrid dims (Spec.mirror dims ax cs) := by
  rw [inGrid_iff] at *
  obtain ⟨hl, h⟩ := h
  refine ⟨by simp [Spec.mirror, hl], fun d hd => ?_⟩
  have := h d hd
  simp only [Spec.mirror, List.getElem_mapIdx, List.getD_eq_getElem?_getD, List.getElem?_eq_getElem hd, Option.getD_some]
  split <;> omega

theorem mirror_mirror {dims cs : List ℕ} (ax : List ℕ) (h : InGrid dims cs) :
    Spec.mirror dims ax (Spec.mirror dims ax cs) = cs := by
  rw [inGrid_iff] at h
  obtain ⟨hl, h⟩ := h
  apply List.ext_getElem
  · simp [Spec.mirror]
  · intro i h1 h2
    have := h i (by omega)
    simp only [Spec.mirror, List.getElem_mapIdx, List.getD_eq_getElem?_getD, List.getElem?_eq_getElem (show i < dims.length by omega),
      Option.getD_some]
    split <;> omega

/-- C41: an axis outside of the parametric dimensions (counting from either end) raises. -/
theorem flip_rejects {K P : Type*} [Field K] [Inhabited K] [Inhabited P] (axes : List ℤ) (s : Spline K P)
    (h : ∃ a ∈ axes, a < -(s.degrees.length : ℤ) ∨ (s.degrees.length : ℤ) ≤ a) : flipAxes axes s = none := by
  have h1 : axes.mapM (pyIndex s.degrees.length) = none := by
    obtain ⟨a, ha, h⟩ := h
    apply Grid.mapM_none_of_mem _ _ a ha
    unfold pyIndex
    rw [if_neg (by omega), if_neg (by omega)]
  unfold flipAxes
  rw [flipLoop_none _ _ _ _ h1]

/-- C41: the flipped spline. `ax` are the axes as non-negative numbers. Control points and weights are mirrored along the axes; degrees and net
shape stay; knot vectors of these axes are mirrored if no axis is listed twice. -/
theorem flip_spec {K P : Type*} [Field K] [Inhabited K] [Inhabited P] (axes : List ℤ) (ax : List ℕ) (s : Spline K P)
    (hs : Spec.Consistent s) (hax : axes.mapM (pyIndex s.degrees.length) = some ax) :
    ∃ t, flipAxes axes s = some t ∧ t.degrees = s.degrees ∧
      controlMeshResolutions t = controlMeshResolutions s ∧
      t.controlPoints.length = s.controlPoints.length ∧
      (∀ cs, InGrid (controlMeshResolutions s) cs →
        t.controlPoints[flat (controlMeshResolutions s) cs]? =
          s.controlPoints[flat (controlMeshResolutions s) (Spec.mirror (controlMeshResolutions s) ax cs)]?) ∧
      t.weights.isSome = s.weights.isSome ∧
      (∀ ws, s.weights = some ws → ∃ wt, t.weights = some wt ∧ wt.length = ws.length ∧
        ∀ cs, InGrid (controlMeshResolutions s) cs →
          wt[flat (controlMeshResolutions s) cs]? =
            ws[flat (controlMeshResolutions s) (Spec.mirror (controlMeshResolutions s) ax cs)]?) ∧
      t.knotVectors.isSome = s.knotVectors.isSome ∧
      (ax.Nodup → ∀ kvs, s.knotVectors = some kvs → ∃ kvt, t.knotVectors = some kvt ∧ kvt.length = kvs.length ∧
        ∀ i (hi : i < kvs.length), kvt[i]? =
          some (if i ∈ ax then flipKnots (s.degrees.getD i 0) kvs[i] else kvs[i])) := by
  have hcl := cmr_length hs
  obtain ⟨ids, h1, h2, h3⟩ := mirror_ids (controlMeshResolutions s) ax
  have hrev : (controlMeshResolutions s).map (fun _ => false) = s.degrees.map (fun _ => false) := by
    apply List.ext_getElem
    · simp [hcl]
    · intro i _ _; simp
  rw [hrev] at h1
  have heq : flipAxes axes s = some
      { degrees := s.degrees
        knotVectors := s.knotVectors.map (flipFold s.degrees ax)
        weights := s.weights.map (fun ws => ids.map (fun i => ws.getD i default))
        controlPoints := ids.map (fun i => s.controlPoints.getD i default) } := by
    unfold flipAxes
    rw [flipLoop_eq _ _ _ _ ax hax]
    simp only
    rw [h1]
    rfl
  have hpt : ∀ {Q : Type _} [Inhabited Q] (l : List Q), l.length = (controlMeshResolutions s).prod →
      ∀ cs, InGrid (controlMeshResolutions s) cs →
        (ids.map (fun i => l.getD i default))[flat (controlMeshResolutions s) cs]? =
          l[flat (controlMeshResolutions s) (Spec.mirror (controlMeshResolutions s) ax cs)]? := by
    intro Q _ l hl cs hcs
    rw [List.getElem?_map, h3 cs hcs, Option.map_some, List.getD_eq_getElem?_getD,
      List.getElem?_eq_getElem (by rw [hl]; exact flat_lt _ _ (mirror_inGrid ax hcs))]
    rfl
  have hpw : ∀ (l : List K), l.length = (controlMeshResolutions s).prod →
      ∀ cs, InGrid (controlMeshResolutions s) cs →
        (ids.map (fun i => l.getD i default))[flat (controlMeshResolutions s) cs]? =
          l[flat (controlMeshResolutions s) (Spec.mirror (controlMeshResolutions s) ax cs)]? := by
    intro l hl cs hcs
    rw [List.getElem?_map, h3 cs hcs, Option.map_some, List.getD_eq_getElem?_getD,
      List.getElem?_eq_getElem (by rw [hl]; exact flat_lt _ _ (mirror_inGrid ax hcs))]
    rfl
  refine ⟨_, heq, rfl, ?_, by simp [h2, hs.cps], fun cs hcs => hpt _ hs.cps cs hcs, by simp, ?_, by simp, ?_⟩
  · unfold controlMeshResolutions
    cases hk : s.knotVectors with
    | none => rfl
    | some kvs =>
      simp only [Option.map_some]
      have h4 := flipFold_mem_length s.degrees ax kvs
      apply List.ext_getElem
      · simp [flipFold_length]
      · intro i h5 h6
        simp only [List.getElem_zipWith]
        have hi : i < kvs.length := by simp at h6; omega
        have := congrArg (fun l : List ℕ => l[i]?) h4
        simp only [List.getElem?_map, List.getElem?_eq_getElem hi,
          List.getElem?_eq_getElem (show i < (flipFold s.degrees ax kvs).length by rw [flipFold_length]; exact hi),
          Option.map_some, Option.some.injEq] at this
        rw [this]
  · intro ws hw
    exact ⟨_, by rw [hw]; rfl, by simp [h2, hs.weights ws hw], fun cs hcs => hpw _ (hs.weights ws hw) cs hcs⟩
  · intro hn kvs hk
    refine ⟨flipFold s.degrees ax kvs, by simp [hk], flipFold_length _ _ _, fun i hi => ?_⟩
    exact flipFold_get s.degrees ax kvs hn i hi

/-- the flipped spline is consistent again -/
theorem flip_consistent {K P : Type*} [Field K] [Inhabited K] [Inhabited P] (axes : List ℤ) (ax : List ℕ) (s t : Spline K P)
    (hs : Spec.Consistent s) (hax : axes.mapM (pyIndex s.degrees.length) = some ax) (hn : ax.Nodup)
    (ht : flipAxes axes s = some t) : Spec.Consistent t := by
  obtain ⟨t', h1, h2, h3, h4, _, h6, h7, h8, h9⟩ := flip_spec axes ax s hs hax
  rw [ht] at h1
  simp only [Option.some.injEq] at h1
  subst h1
  refine ⟨?_, by rw [h3]; exact hs.nets, by rw [h3, h4, hs.cps], ?_⟩
  · intro kvt hk
    cases hsk : s.knotVectors with
    | none => rw [hk, hsk] at h8; simp at h8
    | some kvs =>
      obtain ⟨k', e1, e2, _⟩ := h9 hn kvs hsk
      rw [hk] at e1; simp only [Option.some.injEq] at e1
      rw [e1, e2, h2, hs.knots kvs hsk]
  · intro wt hw
    cases hsw : s.weights with
    | none => rw [hw, hsw] at h6; simp at h6
    | some ws =>
      obtain ⟨wt', e1, e2, _⟩ := h7 ws hsw
      rw [hw] at e1; simp only [Option.some.injEq] at e1
      rw [e1, e2, h3, hs.weights ws hsw]

theorem eq_of_grid' {α : Type*} (dims : List ℕ) (hpos : ∀ r ∈ dims, 0 < r) (A B : List α) (hA : A.length = dims.prod)
    (hB : B.length = dims.prod) (h : ∀ cs, InGrid dims cs → A[flat dims cs]? = B[flat dims cs]?) : A = B := by
  apply List.ext_getElem?
  intro k
  by_cases hk : k < dims.prod
  · rw [← flat_digits dims k hk]; exact h _ (digits_inGrid dims k hpos)
  · rw [List.getElem?_eq_none (by omega), List.getElem?_eq_none (by omega)]

/-- C41: flipping twice restores the spline (axes listed once). -/
theorem flip_involutive_partial {K P : Type*} [Field K] [Inhabited K] [Inhabited P] (axes : List ℤ) (ax : List ℕ) (s : Spline K P)
    (hs : Spec.Consistent s) (hax : axes.mapM (pyIndex s.degrees.length) = some ax) (hn : ax.Nodup)
    (hk : ∀ kvs, s.knotVectors = some kvs → ∀ i (hi : i < kvs.length), Spec.EnoughKnots (s.degrees.getD i 0) kvs[i]) :
    (flipAxes axes s).bind (flipAxes axes) = some s := by
  obtain ⟨t, ht, t2, t3, t4, t5, t6, t7, t8, t9⟩ := flip_spec axes ax s hs hax
  have htc := flip_consistent axes ax s t hs hax hn ht
  obtain ⟨u, hu, u2, u3, u4, u5, u6, u7, u8, u9⟩ := flip_spec axes ax t htc (by rw [t2]; exact hax)
  rw [ht, Option.bind_some, hu]
  congr 1
  rw [t3] at u3 u5 u7
  have e3 : u.controlPoints = s.controlPoints := by
    apply eq_of_grid' _ hs.nets _ _ (by rw [u4, t4, hs.cps]) hs.cps
    intro cs hcs
    rw [u5 cs hcs, t5 _ (mirror_inGrid ax hcs), mirror_mirror ax hcs]
  have e4 : u.weights = s.weights := by
    cases hw : s.weights with
    | none =>
      have a : t.weights = none := by simpa [hw] using t6
      simpa [a] using u6
    | some ws =>
      obtain ⟨wt, a1, a2, a3⟩ := t7 ws hw
      obtain ⟨wu, b1, b2, b3⟩ := u7 wt a1
      rw [b1]
      congr 1
      apply eq_of_grid' _ hs.nets _ _ (by rw [b2, a2, hs.weights ws hw]) (hs.weights ws hw)
      intro cs hcs
      rw [b3 cs hcs, a3 _ (mirror_inGrid ax hcs), mirror_mirror ax hcs]
  have e5 : u.knotVectors = s.knotVectors := by
    cases hw : s.knotVectors with
    | none =>
      have a : t.knotVectors = none := by simpa [hw] using t8
      simpa [a] using u8
    | some kvs =>
      obtain ⟨kt, a1, a2, a3⟩ := t9 hn kvs hw
      obtain ⟨ku, b1, b2, b3⟩ := u9 hn kt a1
      rw [b1]
      congr 1
      apply List.ext_getElem
      · omega
      · intro i h1 h2
        have c1 := b3 i (by omega)
        have c2 := a3 i h2
        rw [List.getElem?_eq_getElem h1] at c1
        rw [List.getElem?_eq_getElem (by omega)] at c2
        simp only [Option.some.injEq] at c1 c2
        rw [c1, c2, t2]
        by_cases h : i ∈ ax
        · simp only [if_pos h]
          exact flipKnots_involutive _ _ (hk kvs hw i h2)
        · simp only [if_neg h]
  have e1 : u.degrees = s.degrees := by rw [u2, t2]
  cases u; cases s
  simp_all

/-- C41: the flipped spline evaluates like the original one if the univariate basis functions of the flipped axes are numbered backwards. -/
theorem flip_evaluates_same {K : Type*} [Field K] [Inhabited K] (axes : List ℤ) (ax : List ℕ) (s t : Spline K K)
    (hs : Spec.Consistent s) (hax : axes.mapM (pyIndex s.degrees.length) = some ax)
    (ht : flipAxes axes s = some t) (basis : List (ℕ → K)) (hb : basis.length = s.degrees.length) :
    tensorEval (basis.mapIdx (fun i b => if i ∈ ax then fun c => b ((controlMeshResolutions s).getD i 0 - 1 - c) else b))
      (controlMeshResolutions t) t.controlPoints = tensorEval basis (controlMeshResolutions s) s.controlPoints := by
  obtain ⟨t', h1, _, h3, _, h5, _⟩ := flip_spec axes ax s hs hax
  rw [ht] at h1
  simp only [Option.some.injEq] at h1
  subst h1
  set dims := controlMeshResolutions s with hdims
  have hcl : dims.length = s.degrees.length := cmr_length hs
  unfold tensorEval
  rw [h3]
  have hmp : ((List.range dims.prod).map (fun k => flat dims (Spec.mirror dims ax (digits dims k)))).Perm (List.range dims.prod) := by
    have hnd : ((List.range dims.prod).map (fun k => flat dims (Spec.mirror dims ax (digits dims k)))).Nodup := by
      apply List.Nodup.map_on _ List.nodup_range
      intro x hx y hy he
      have gx := digits_inGrid dims x hs.nets
      have gy := digits_inGrid dims y hs.nets
      have := flat_inj _ _ _ (mirror_inGrid ax gx) (mirror_inGrid ax gy) he
      have := congrArg (Spec.mirror dims ax) this
      rw [mirror_mirror ax gx, mirror_mirror ax gy] at this
      exact digits_inj _ _ _ (by simpa using hx) (by simpa using hy) this
    have hsub : ((List.range dims.prod).map (fun k => flat dims (Spec.mirror dims ax (digits dims k)))).Subperm
        (List.range dims.prod) := by
      apply List.subperm_of_subset hnd
      intro k hk
      obtain ⟨g, _, rfl⟩ := List.mem_map.1 hk
      rw [List.mem_range]
      exact flat_lt _ _ (mirror_inGrid ax (digits_inGrid dims g hs.nets))
    exact hsub.perm_of_length_le (by simp)
  rw [← (hmp.map _).sum_eq, List.map_map]
  congr 1
  apply List.map_congr_left
  intro g hg
  have hg' : g < dims.prod := by simpa using hg
  have hgrid := digits_inGrid dims g hs.nets
  simp only [Function.comp]
  rw [digits_flat _ _ (mirror_inGrid ax hgrid), List.getD_eq_getElem?_getD, h5 _ (mirror_inGrid ax hgrid),
    mirror_mirror ax hgrid, flat_digits _ _ hg', ← List.getD_eq_getElem?_getD]
  congr 1
  unfold basisProduct
  congr 1
  apply List.ext_getElem
  · simp [Spec.mirror, digits_length]
  · intro i h6 h7
    simp only [List.getElem_zipWith, List.getElem_mapIdx, Spec.mirror]
    obtain ⟨_, hlt⟩ := inGrid_iff.1 hgrid
    have hi : i < dims.length := by simp [digits_length] at h7; omega
    have := hlt i hi
    split
    · simp only [List.getD_eq_getElem?_getD, List.getElem?_eq_getElem hi, Option.getD_some]
      have h8 : dims[i] - 1 - (dims[i] - 1 - (digits dims g)[i]) = (digits dims g)[i] := by omega
      rw [h8]
    · rfl

/-- a consistent spline with a non-symmetric inner knot -/
def exampleFlip : Spline ℚ ℤ :=
  { degrees := [1, 1], knotVectors := some [[0, 0, 1, 4, 4], [0, 0, 1, 1]], weights := none, controlPoints := [0, 1, 2, 10, 11, 12] }

example : Spec.Consistent exampleFlip ∧ [(-2 : ℤ)].mapM (pyIndex 2) = some [0] ∧ [0].Nodup ∧
    (flipAxes [-2] exampleFlip).map (fun t => (t.controlPoints, t.knotVectors)) =
      some ([2, 1, 0, 12, 11, 10], some [[0, 0, 3, 4, 4], [0, 0, 1, 1]]) := by
  refine ⟨⟨?_, by decide, by decide, ?_⟩, by decide, by decide, by decide +kernel⟩
  · intro kvs h; simp [exampleFlip] at h; subst h; rfl
  · intro ws h; simp [exampleFlip] at h

/-- C41 fails for lists that name an axis twice: the control points are reversed once, but the knot vector is mirrored twice, so the control
points no longer match their knots. -/
theorem flip_duplicate_axis_violates :
    (flipAxes [0, 0] exampleFlip).map (fun t => (t.controlPoints, t.knotVectors)) =
      some ([2, 1, 0, 12, 11, 10], exampleFlip.knotVectors) := by decide +kernel

end Splinepy.Index
