import Verif.Model.ConstructPartial
import Verif.Props.Construct

/-! C139: splines whose properties are left out at first; C73: fields of rational microstructures. -/

namespace Splinepy.SplineCore

variable {K : Type} [Field K] [LinearOrder K] [IsStrictOrderedRing K]

/-! ### Specification -/

/-- A call that does not assign degrees, refine or edit: other assignments, clearing, reading. -/
def Spec.OtherThanDegrees : Op K → Prop
  | .degrees _ | .modify _ | .editKvs _ => False
  | _ => True

/-- The class needs a property other than the degrees that is left out. -/
def Spec.LeftOut (cls : Cls) (p : Props K) : Prop := p.cps = none ∨ (cls.requiresKvs = true ∧ p.kvs = none) ∨ (cls.requiresWs = true ∧ p.ws = none)

/-! ### Proofs -/

/-- complete properties: the constructor of the other model -/
theorem initialise_given (maxDim : ℕ) (cls : Cls) (p : Props K) (h : Given cls p) : initialise maxDim cls p = construct maxDim cls p := by
  obtain ⟨d, k, c, w⟩ := p
  obtain ⟨h1, h2, h3, h4, h5, h6⟩ := h
  obtain ⟨d, rfl⟩ := Option.isSome_iff_exists.mp h1
  obtain ⟨c, rfl⟩ := Option.isSome_iff_exists.mp h2
  cases cls with
  | spline => simp [initialise]
  | bezier => simp [initialise, construct, argument, Cls.requiresKvs, Cls.requiresWs, Cls.takesKvs, Cls.takesWs]
  | rationalBezier =>
    obtain ⟨w, rfl⟩ := Option.isSome_iff_exists.mp (h4 rfl)
    simp [initialise, construct, argument, Cls.requiresKvs, Cls.requiresWs, Cls.takesKvs, Cls.takesWs]
  | bspline =>
    obtain ⟨k, rfl⟩ := Option.isSome_iff_exists.mp (h3 rfl)
    simp [initialise, construct, argument, Cls.requiresKvs, Cls.requiresWs, Cls.takesKvs, Cls.takesWs]
  | nurbs =>
    obtain ⟨k, rfl⟩ := Option.isSome_iff_exists.mp (h3 rfl)
    obtain ⟨w, rfl⟩ := Option.isSome_iff_exists.mp (h4 rfl)
    simp [initialise, construct, argument, Cls.requiresKvs, Cls.requiresWs, Cls.takesKvs, Cls.takesWs]

/-- no core and no degrees -/
def Bare (s : State K) : Prop := s.cur = none ∧ s.data.degrees = none

theorem safeNewCore_bare (maxDim : ℕ) (cls : Cls) (e : Prop') {s : State K} (h : Bare s) : safeNewCore maxDim cls e s = ⟨s, false⟩ := by
  have hd : (getDegrees s).1 = s := by rw [getDegrees_nocore s h.1]
  have hk : (getKvs s).1 = s := by rw [getKvs_nocore s h.1]
  have hp : prepare s = s := by simp [prepare, State.core, h.1]
  unfold safeNewCore
  simp only [getCps, getWs, hd, ite_self, hk, hp]
  exact pyNewCore_incomplete maxDim cls s (Or.inl h.2)

theorem step_bare (maxDim : ℕ) (cls : Cls) {s : State K} (h : Bare s) {op : Op K} (hop : Spec.OtherThanDegrees op) : Bare (step maxDim cls s op).state := by
  cases op with
  | degrees => cases hop
  | modify => cases hop
  | editKvs => cases hop
  | kvs l =>
    simp only [step, setKvs, getDegrees_nocore s h.1, h.2, mismatch, Bool.false_eq_true, if_false]
    rw [safeNewCore_bare maxDim cls .kvs (s := { s with data := { s.data with degrees := none, kvs := some (.plain l) } }) ⟨h.1, rfl⟩]
    exact ⟨h.1, rfl⟩
  | cps m =>
    simp only [step, setCps]
    split
    · exact h
    · rw [safeNewCore_bare maxDim cls .cps (s := { s with data := { s.data with cps := some m } }) ⟨h.1, h.2⟩]
      exact ⟨h.1, h.2⟩
  | ws w =>
    simp only [step, setWs]
    split
    · exact h
    · rw [safeNewCore_bare maxDim cls .ws (s := { s with data := { s.data with ws := some w } }) ⟨h.1, h.2⟩]
      exact ⟨h.1, h.2⟩
  | clear => exact ⟨rfl, rfl⟩
  | readKvs => simp only [step, getKvs_nocore s h.1]; exact h
  | readCps => simp only [step, getCps, prepare, State.core, h.1, Option.bind_none]; exact h
  | readMultiIndex =>
    simp only [step]
    split
    · exact h
    · rename_i g hg
      unfold getMultiIndex at hg
      split at hg
      · cases hg; exact h
      · simp [State.core, h.1] at hg

theorem run_bare (maxDim : ℕ) (cls : Cls) (ops : List (Op K)) {s s' : State K} (h : Bare s) (hops : ∀ op ∈ ops, Spec.OtherThanDegrees op) (hr : run maxDim cls s ops = some s') : Bare s' := by
  induction ops generalizing s with
  | nil => cases hr; exact h
  | cons op ops ih =>
    have hb := step_bare maxDim cls h (hops op (by simp))
    cases hx : (step maxDim cls s op).raised with
    | true => rw [run_cons_raised maxDim cls s op ops hx] at hr; cases hr
    | false =>
      rw [run_cons maxDim cls s (step maxDim cls s op).state op ops (by rw [← hx])] at hr
      exact ih hb (fun o ho => hops o (by simp [ho])) hr

/-- after a clearing, whatever was before it -/
theorem run_clear (maxDim : ℕ) (cls : Cls) (ops ops' : List (Op K)) {s s' : State K} (hops : ∀ op ∈ ops', Spec.OtherThanDegrees op) (hr : run maxDim cls s (ops ++ .clear :: ops') = some s') : Bare s' := by
  unfold run at hr
  rw [List.foldlM_append] at hr
  obtain ⟨t, -, h2⟩ := Option.bind_eq_some_iff.mp hr
  refine run_bare maxDim cls ops' (s := { t with data := {}, cur := none }) ⟨rfl, rfl⟩ hops ?_
  rw [← run_cons maxDim cls t { t with data := {}, cur := none } .clear ops' rfl]
  exact h2

theorem initialise_bare (maxDim : ℕ) (cls : Cls) (hc : cls ≠ .spline) (p : Props K) (h : Spec.LeftOut cls p) {s : State K} (hs : initialise maxDim cls p = some s) : Bare s := by
  obtain ⟨d, k, c, w⟩ := p
  unfold initialise at hs
  rw [if_neg hc] at hs
  have other : ∀ op ∈ (if cls.requiresWs then argument (Op.ws (K := K)) w else []), Spec.OtherThanDegrees op := by
    intro op hop
    split at hop
    · cases w <;> (simp only [argument, List.mem_singleton] at hop; subst hop; trivial)
    · simp at hop
  have other' : ∀ op ∈ argument (Op.cps (K := K)) c, Spec.OtherThanDegrees op := by
    intro op hop
    cases c <;> (simp only [argument, List.mem_singleton] at hop; subst hop; trivial)
  rcases h with h | ⟨h1, h⟩ | ⟨h1, h⟩ <;> simp only at h <;> subst h
  · simp only [argument, List.append_assoc, List.singleton_append] at hs
    rw [← List.append_assoc] at hs
    exact run_clear maxDim cls _ _ other hs
  · simp only [h1, if_true] at hs
    simp only [argument, List.append_assoc, List.singleton_append] at hs
    refine run_clear maxDim cls _ _ (fun op hop => ?_) hs
    rcases List.mem_append.mp hop with e | e
    · exact other' op e
    · exact other op e
  · simp only [h1, if_true] at hs
    exact run_clear maxDim cls _ [] (by simp) hs

/-! ### Results -/

/-- C139 violated: a `BSpline`, `NURBS`, `Bezier` or `RationalBezier` that is constructed without control points, required knot vectors or required weights has forgotten its degrees, whatever else was given. It stays
without a core, so that every use raises, until the degrees are assigned again. -/
theorem left_out_violates (maxDim : ℕ) (cls : Cls) (hc : cls ≠ .spline) (p : Props K) (h : Spec.LeftOut cls p) (s : State K) (hs : initialise maxDim cls p = some s) (ops : List (Op K))
    (hops : ∀ op ∈ ops, Spec.OtherThanDegrees op) (s' : State K) (hr : run maxDim cls s ops = some s') : s'.core = none ∧ s'.data.degrees = none := by
  have := run_bare maxDim cls ops (initialise_bare maxDim cls hc p h hs) hops hr
  exact ⟨by simp [State.core, this.1], this.2⟩

/-- C139 (partial): a spline of any class that is constructed without degrees, and gets them afterwards, is the spline that is constructed with all properties; if the properties are refused, so are the degrees. -/
theorem complete_degrees_partial (maxDim : ℕ) (cls : Cls) (ds : List Int) (cps : Mat K) (kvs : Option (List (List K))) (ws : Option (List K)) (hg : Given cls ⟨some ds, kvs, some cps, ws⟩)
    (hk : ∀ l, kvs = some l → l.length = ds.length) (hw : ∀ w, ws = some w → w.length = cps.rows.length) :
    ((initialise maxDim cls ⟨none, kvs, some cps, ws⟩).bind fun s => run maxDim cls s [.degrees ds]).map State.core = (initialise maxDim cls ⟨some ds, kvs, some cps, ws⟩).map State.core := by
  rw [initialise_given maxDim cls _ hg]
  by_cases hc : cls = .spline
  · subst hc
    simp only [initialise, if_true, construct, Option.map_none, Option.toList_none, List.append_nil, Option.map_some, Option.toList_some]
    unfold run
    rw [List.foldlM_append (l' := [Op.degrees ds])]
    rfl
  · rw [construct_eq maxDim cls ds cps kvs ws hg hk hw _ rfl]
    have hfin := pyNewCore_complete maxDim cls ⟨⟨some ds, kvs.map .plain, some cps, ws, none⟩, [], none⟩ _ hg rfl (bind_value_plain _ _) rfl rfl
    obtain ⟨-, -, g3, g4, g5, g6⟩ := id hg
    simp only at g3 g4 g5 g6
    have key : initialise maxDim cls ⟨none, kvs, some cps, ws⟩ = some ⟨⟨none, kvs.map .plain, some cps, ws, none⟩, [], none⟩ := by
      have c0 : ∀ ops : List (Op K), run maxDim cls {} (.clear :: ops) = run maxDim cls {} ops := fun ops => run_cons maxDim cls {} {} .clear ops rfl
      have setk : ∀ (l : List (List K)) (ops : List (Op K)) (s : State K), Bare s → run maxDim cls s (.kvs l :: ops) = run maxDim cls { s with data := { s.data with kvs := some (.plain l) } } ops := fun l ops s hb =>
        ((run_set maxDim cls s hb.1 ops).2.1 l (by simp [hb.2]) (Or.inl hb.2))
      have setc : ∀ (m : Mat K) (ops : List (Op K)) (s : State K), Bare s → s.data.ws = none → run maxDim cls s (.cps m :: ops) = run maxDim cls { s with data := { s.data with cps := some m } } ops := fun m ops s hb hn =>
        ((run_set maxDim cls s hb.1 ops).2.2.1 m (by simp [hn]) (Or.inl hb.2))
      have setw : ∀ (w : List K) (ops : List (Op K)) (s : State K), Bare s → s.data.cps = some cps → w.length = cps.rows.length → run maxDim cls s (.ws w :: ops) = run maxDim cls { s with data := { s.data with ws := some w } } ops :=
        fun w ops s hb hn hl => ((run_set maxDim cls s hb.1 ops).2.2.2 w (by simp [hn, hl]) (Or.inl hb.2))
      unfold initialise
      rw [if_neg hc]
      cases cls with
      | spline => exact absurd rfl hc
      | bezier =>
        have := g5 rfl; have := g6 rfl; subst kvs ws
        simp only [argument, Cls.requiresKvs, Cls.requiresWs, Bool.false_eq_true, if_false, List.append_nil, List.singleton_append]
        rw [c0, setc _ _ _ ⟨rfl, rfl⟩ rfl]; rfl
      | rationalBezier =>
        have := g5 rfl; subst kvs
        obtain ⟨w, rfl⟩ := Option.isSome_iff_exists.1 (g4 rfl)
        simp only [argument, Cls.requiresKvs, Cls.requiresWs, Bool.false_eq_true, if_false, if_true, List.append_nil, List.singleton_append, List.cons_append, List.nil_append]
        rw [c0, setc _ _ _ ⟨rfl, rfl⟩ rfl, setw _ _ _ ⟨rfl, rfl⟩ rfl (hw w rfl)]; rfl
      | bspline =>
        have := g6 rfl; subst ws
        obtain ⟨l, rfl⟩ := Option.isSome_iff_exists.1 (g3 rfl)
        simp only [argument, Cls.requiresKvs, Cls.requiresWs, Bool.false_eq_true, if_false, if_true, List.append_nil, List.singleton_append, List.cons_append, List.nil_append]
        rw [c0, setk _ _ _ ⟨rfl, rfl⟩, setc _ _ _ ⟨rfl, rfl⟩ rfl]; rfl
      | nurbs =>
        obtain ⟨l, rfl⟩ := Option.isSome_iff_exists.1 (g3 rfl)
        obtain ⟨w, rfl⟩ := Option.isSome_iff_exists.1 (g4 rfl)
        simp only [argument, Cls.requiresKvs, Cls.requiresWs, if_true, List.append_nil, List.singleton_append, List.cons_append, List.nil_append]
        rw [c0, setk _ _ _ ⟨rfl, rfl⟩, setc _ _ _ ⟨rfl, rfl⟩ rfl, setw _ _ _ ⟨rfl, rfl⟩ rfl (hw w rfl)]; rfl
    rw [key]
    simp only [Option.bind_some]
    rw [run_last, (set_nocore maxDim cls _ (by rfl)).1 ds (by
      intro l hl
      rw [bind_value_plain] at hl
      exact hk l hl)]
    simp only
    rw [hfin]

/-- C139 (partial): a `Spline` that is constructed without control points, and gets them afterwards, is the spline that is constructed with all properties. -/
theorem complete_control_points_partial (maxDim : ℕ) (ds : List Int) (cps : Mat K) (kvs : Option (List (List K))) (ws : Option (List K))
    (hk : ∀ l, kvs = some l → l.length = ds.length) (hw : ∀ w, ws = some w → w.length = cps.rows.length) :
    ((initialise maxDim .spline ⟨some ds, kvs, none, ws⟩).bind fun s => run maxDim .spline s [.cps cps]).map State.core = (initialise maxDim .spline ⟨some ds, kvs, some cps, ws⟩).map State.core := by
  have hg : Given .spline (⟨some ds, kvs, some cps, ws⟩ : Props K) := ⟨rfl, rfl, by simp [Cls.requiresKvs], by simp [Cls.requiresWs], by simp [Cls.takesKvs], by simp [Cls.takesWs]⟩
  rw [initialise_given maxDim .spline _ hg, construct_eq maxDim .spline ds cps kvs ws hg hk hw _ rfl]
  have hfin := pyNewCore_complete maxDim .spline ⟨⟨some ds, kvs.map .plain, some cps, ws, none⟩, [], none⟩ _ hg rfl (bind_value_plain _ _) rfl rfl
  have key : initialise maxDim .spline ⟨some ds, kvs, none, ws⟩ = some ⟨⟨some ds, kvs.map .plain, none, ws, none⟩, [], none⟩ := by
    unfold initialise construct
    simp only [if_true, Cls.takesKvs, Cls.takesWs, Option.map_none, Option.toList_none, List.append_nil, Option.map_some, Option.toList_some]
    have setd : ∀ s : State K, s.cur = none → s.data.cps = none → (∀ l, s.data.kvs.bind (·.value s.heap) = some l → l.length = ds.length) →
        run maxDim .spline s [.degrees ds] = some { s with data := { s.data with degrees := some ds } } := fun s h1 h2 h3 => by
      rw [(run_set maxDim .spline s h1 []).1 ds h3 (Or.inl h2)]; rfl
    have setk : ∀ (l : List (List K)) (ops : List (Op K)) (s : State K), Bare s → run maxDim .spline s (.kvs l :: ops) = run maxDim .spline { s with data := { s.data with kvs := some (.plain l) } } ops := fun l ops s hb =>
      ((run_set maxDim .spline s hb.1 ops).2.1 l (by simp [hb.2]) (Or.inl hb.2))
    have setw : ∀ (w : List K) (ops : List (Op K)) (s : State K), Bare s → s.data.cps = none → run maxDim .spline s (.ws w :: ops) = run maxDim .spline { s with data := { s.data with ws := some w } } ops :=
      fun w ops s hb hn => ((run_set maxDim .spline s hb.1 ops).2.2.2 w (by simp [hn]) (Or.inl hb.2))
    cases ws with
    | none =>
      cases kvs with
      | none => simp only [Option.map_none, Option.toList_none, List.nil_append]; rw [setd _ rfl rfl (by simp)]
      | some l =>
        simp only [Option.map_none, Option.toList_none, List.nil_append, Option.map_some, Option.toList_some, List.singleton_append]
        rw [setk _ _ _ ⟨rfl, rfl⟩, setd _ rfl rfl (by simpa [KvData.value] using hk l rfl)]
    | some w =>
      cases kvs with
      | none =>
        simp only [Option.map_none, Option.toList_none, List.append_nil, Option.map_some, Option.toList_some, List.singleton_append]
        rw [setw _ _ _ ⟨rfl, rfl⟩ rfl, setd _ rfl rfl (by simp)]
      | some l =>
        simp only [Option.map_some, Option.toList_some, List.singleton_append, List.cons_append]
        rw [setw _ _ _ ⟨rfl, rfl⟩ rfl, List.nil_append, List.singleton_append, setk _ _ _ ⟨rfl, rfl⟩, setd _ rfl rfl (by simpa [KvData.value] using hk l rfl)]
  rw [key]
  simp only [Option.bind_some]
  rw [run_last, (set_nocore maxDim .spline _ (by rfl)).2.2.1 cps (by simpa using hw)]
  simp only
  rw [hfin]

/-- C73 violated: the fields of derivatives with respect to the control points of the deformation function cannot be made if the deformation function or a tile is rational: the call raises for all of them. -/
theorem macro_rational_violates (maxDim : ℕ) (patches : List (List Int × Mat K)) (h : patches ≠ []) : macroField maxDim true patches = none := by
  obtain ⟨p, patches, rfl⟩ := List.exists_cons_of_ne_nil h
  unfold macroField
  rw [List.mapM_cons]
  simp only [if_true]
  rcases e : initialise maxDim .rationalBezier (⟨some p.1, none, some p.2, none⟩ : Props K) with _ | s
  · rfl
  · have := initialise_bare maxDim .rationalBezier (by simp) _ (Or.inr (Or.inr ⟨rfl, rfl⟩)) e
    simp [coreOrRaise, State.core, this.1]

/-- Otherwise they can. -/
theorem macro_polynomial (maxDim : ℕ) (patches : List (List Int × Mat K)) (h : ∀ p ∈ patches, Spec.ConsistentProps p.1 p.2 (none : Option (List (List K))) none ∧ Spec.SupportedDims maxDim p.1.length p.2.dim false) :
    macroField maxDim false patches = some (patches.map fun p => ⟨.bezier, p.1, none, p.2, none⟩) := by
  induction patches with
  | nil => rfl
  | cons p patches ih =>
    have hg : Given .bezier (⟨some p.1, none, some p.2, none⟩ : Props K) := ⟨rfl, rfl, by simp [Cls.requiresKvs], by simp [Cls.requiresWs], by simp, by simp⟩
    obtain ⟨h1, h2⟩ := h p (by simp)
    have hc := (newCore_created_iff maxDim p.1 p.2 none none _ (by simp)).2 ⟨h1, h2, by simp, rfl⟩
    have hs : initialise maxDim .bezier (⟨some p.1, none, some p.2, none⟩ : Props K) = some ⟨⟨some p.1, none, some p.2, none, none⟩, [⟨.bezier, p.1, none, p.2, none⟩], some 0⟩ := by
      rw [initialise_given maxDim .bezier _ hg, construct_eq maxDim .bezier p.1 p.2 none none hg (by simp) (by simp) _ rfl, hc]
      rfl
    unfold macroField at ih ⊢
    rw [List.mapM_cons, ih fun q hq => h q (by simp [hq])]
    simp [hs, coreOrRaise, State.core]

/-- Non-vacuity: a B-spline without control points, which are assigned afterwards. -/
example : ∃ s s' : State ℚ, initialise 10 .bspline (⟨some [1], some [[0, 0, 1, 1]], none, none⟩ : Props ℚ) = some s ∧ run 10 .bspline s [.cps ⟨2, [[0, 0], [1, 1]]⟩] = some s' ∧ s'.core = none ∧
    (∃ t, initialise 10 .bspline (⟨some [1], some [[0, 0, 1, 1]], some ⟨2, [[0, 0], [1, 1]]⟩, none⟩ : Props ℚ) = some t ∧ t.core ≠ none) :=
  ⟨(initialise 10 .bspline (⟨some [1], some [[0, 0, 1, 1]], none, none⟩ : Props ℚ)).getD {},
    ((initialise 10 .bspline (⟨some [1], some [[0, 0, 1, 1]], none, none⟩ : Props ℚ)).bind fun s => run 10 .bspline s [.cps ⟨2, [[0, 0], [1, 1]]⟩]).getD {}, by decide +kernel, by decide +kernel, by decide +kernel,
    (initialise 10 .bspline (⟨some [1], some [[0, 0, 1, 1]], some ⟨2, [[0, 0], [1, 1]]⟩, none⟩ : Props ℚ)).getD {}, by decide +kernel, by decide +kernel⟩

/-- Non-vacuity of `left_out_violates` -/
example : ∃ s : State ℚ, initialise 10 .nurbs (⟨some [1], some [[0, 0, 1, 1]], some ⟨2, [[0, 0], [1, 1]]⟩, none⟩ : Props ℚ) = some s ∧ ∀ s', run 10 .nurbs s [.ws [1, 2]] = some s' → s'.core = none :=
  ⟨(initialise 10 .nurbs (⟨some [1], some [[0, 0, 1, 1]], some ⟨2, [[0, 0], [1, 1]]⟩, none⟩ : Props ℚ)).getD {}, by decide +kernel, fun s' hs' =>
    (left_out_violates 10 .nurbs (by simp) _ (Or.inr (Or.inr ⟨rfl, rfl⟩)) _ (show initialise 10 .nurbs (⟨some [1], some [[0, 0, 1, 1]], some ⟨2, [[0, 0], [1, 1]]⟩, none⟩ : Props ℚ) = _ by decide +kernel) [.ws [1, 2]] (by simp [Spec.OtherThanDegrees]) s' hs').1⟩

/-- Non-vacuity of `complete_degrees_partial`: the completed spline exists. -/
example : ((initialise 10 .nurbs (⟨none, some [[0, 0, 1, 1]], some ⟨2, [[0, 0], [1, 1]]⟩, some [1, 2]⟩ : Props ℚ)).bind fun s => run 10 .nurbs s [.degrees [1]]).map State.core =
    some (some ⟨.nurbs, [1], some [[0, 0, 1, 1]], ⟨2, [[0, 0], [1, 1]]⟩, some [1, 2]⟩) := by
  rw [complete_degrees_partial 10 .nurbs [1] ⟨2, [[0, 0], [1, 1]]⟩ (some [[0, 0, 1, 1]]) (some [1, 2]) ⟨rfl, rfl, by simp, by simp, by simp [Cls.takesKvs], by simp [Cls.takesWs]⟩ (by simp) (by simp)]
  decide +kernel

/-- Non-vacuity of `complete_control_points_partial` -/
example : ((initialise 10 .spline (⟨some [1], some [[0, 0, 1, 1]], none, some [1, 2]⟩ : Props ℚ)).bind fun s => run 10 .spline s [.cps ⟨2, [[0, 0], [1, 1]]⟩]).map State.core =
    some (some ⟨.nurbs, [1], some [[0, 0, 1, 1]], ⟨2, [[0, 0], [1, 1]]⟩, some [1, 2]⟩) := by
  rw [complete_control_points_partial 10 [1] ⟨2, [[0, 0], [1, 1]]⟩ (some [[0, 0, 1, 1]]) (some [1, 2]) (by simp) (by simp)]
  decide +kernel

/-- Non-vacuity of `macro_polynomial` and `macro_rational_violates`: one patch, a line -/
example : macroField 10 false [([1], (⟨2, [[0, 0], [1, 1]]⟩ : Mat ℚ))] = some [⟨.bezier, [1], none, ⟨2, [[0, 0], [1, 1]]⟩, none⟩] ∧ macroField 10 true [([1], (⟨2, [[0, 0], [1, 1]]⟩ : Mat ℚ))] = none :=
  ⟨by decide +kernel, macro_rational_violates 10 _ (by simp)⟩

end Splinepy.SplineCore
