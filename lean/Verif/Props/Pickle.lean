import Verif.Model.Pickle
import Verif.Props.Construct

/-!
C132: pickled splines. The model is `Verif/Model/Pickle.lean`.
-/
namespace Splinepy.Pickle
open Splinepy.SplineCore

variable {K : Type} [Field K] [LinearOrder K] [IsStrictOrderedRing K]

/-! ### Specification -/

/-- the core passes the checks of the constructor: it is what one gets from its own properties -/
def Spec.Rebuildable (maxDim : ℕ) (c : Core K) : Prop := newCore maxDim ⟨some c.degrees, c.kvs, some c.cps, c.ws⟩ = .created c

/-- calls that set, read, clear and refine; refinement gives a core that could also be constructed. (Assignments to the object returned by `knot_vectors` are not among them.) -/
def Spec.Plain (maxDim : ℕ) : Op K → Prop
  | .modify c => Spec.Rebuildable maxDim c
  | .editKvs _ => False
  | _ => True

/-- the knot vectors have been read since the last refinement -/
def Spec.KnotsRead (s : State K) : Prop := ∃ j, s.data.kvs = some (.space j)

/-! ### Cores of all histories can be rebuilt -/

theorem kvLoop_take (kvs : List (List K)) : ∀ (ds : List Int) (i : ℕ) (acc : Int), kvLoop (kvs.take (i + ds.length)) i ds acc = kvLoop kvs i ds acc
  | [], _, _ => rfl
  | d :: ds, i, acc => by
    have h1 : (kvs.take (i + (d :: ds).length))[i]? = kvs[i]? := by
      rw [List.getElem?_take, if_pos (by simp)]
    have h2 : i + (d :: ds).length = i + 1 + ds.length := by simp; omega
    rw [kvLoop, kvLoop, h1]
    split_ifs
    · rfl
    · cases kvs[i]? with
      | none => rfl
      | some kv =>
        dsimp only
        split_ifs
        · rfl
        · rfl
        · rw [h2]; exact kvLoop_take kvs ds (i + 1) _

theorem created_rebuildable (maxDim : ℕ) (p : Props K) (c : Core K) (h : newCore maxDim p = .created c) : Spec.Rebuildable maxDim c := by
  obtain ⟨d, k, m, w⟩ := p
  unfold Spec.Rebuildable
  cases d with
  | none => simp [newCore] at h
  | some ds =>
    cases m with
    | none => simp [newCore] at h
    | some cps =>
      have hr : requiredNcps (k.map (·.take ds.length)) ds = requiredNcps k ds := by
        cases k with
        | none => rfl
        | some l =>
          have := kvLoop_take l ds 0 1
          rw [Nat.zero_add] at this
          exact this
      have ht : (k.map (·.take ds.length)).map (·.take ds.length) = k.map (·.take ds.length) := by
        cases k with
        | none => rfl
        | some l => simp
      have hs : (k.map (·.take ds.length)).isSome = k.isSome := by cases k <;> rfl
      unfold newCore at h
      dsimp only at h
      by_cases h1 : cps.dim = 0
      · rw [if_pos h1] at h; simp at h
      rw [if_neg h1] at h
      cases hq : requiredNcps k ds with
      | none => rw [hq] at h; simp at h
      | some r =>
        rw [hq] at h
        dsimp only at h
        by_cases h2 : (cps.rows.length : Int) ≠ r
        · rw [if_pos h2] at h; simp at h
        rw [if_neg h2] at h
        cases w with
        | none =>
          dsimp only at h
          by_cases h3 : dimsSupported maxDim (dispatch k.isSome false) ds.length cps.dim = true
          · rw [if_pos h3] at h
            obtain rfl := Created.created.inj h
            unfold newCore
            dsimp only
            rw [if_neg h1, hr, hq]
            dsimp only
            rw [if_neg h2, hs, if_pos h3, ht]
          · rw [if_neg h3] at h; simp at h
        | some w =>
          dsimp only at h
          by_cases h3 : w.length ≠ cps.rows.length
          · rw [if_pos h3] at h; simp at h
          rw [if_neg h3] at h
          by_cases h4 : dimsSupported maxDim (dispatch k.isSome true) ds.length cps.dim = true
          · rw [if_pos h4] at h
            obtain rfl := Created.created.inj h
            unfold newCore
            dsimp only
            rw [if_neg h1, hr, hq]
            dsimp only
            rw [if_neg h2, if_neg h3, hs, if_pos h4, ht]
          · rw [if_neg h4] at h; simp at h

/-- all cores made so far -/
def Good (maxDim : ℕ) (s : State K) : Prop := ∀ c ∈ s.heap, Spec.Rebuildable maxDim c

theorem takeCore_good (maxDim : ℕ) (s : State K) (p : Props K) (h : Good maxDim s) : Good maxDim (takeCore s (newCore maxDim p)).state := by
  cases hc : newCore maxDim p with
  | skipped => exact h
  | raised => exact h
  | created c =>
    intro c' hc'
    rcases List.mem_append.1 hc' with h1 | h1
    · exact h c' h1
    · obtain rfl := List.mem_singleton.1 h1
      exact created_rebuildable maxDim p _ hc

theorem getDegrees_heap (s : State K) : (getDegrees s).1.heap = s.heap := by
  unfold getDegrees
  split
  · rfl
  · split <;> rfl

theorem getKvs_heap (s : State K) : (getKvs s).1.heap = s.heap := by
  unfold getKvs
  split
  · rfl
  · split
    · rfl
    · split <;> rfl

theorem prepare_heap (s : State K) : (prepare s).heap = s.heap := by
  unfold prepare
  split
  · rfl
  · split_ifs <;> rfl

theorem safeNewCore_good (maxDim : ℕ) (cls : Cls) (x : Prop') (s : State K) (h : Good maxDim s) : Good maxDim (safeNewCore maxDim cls x s).state := by
  unfold safeNewCore pyNewCore
  dsimp only
  generalize hs4 : (if x = Prop'.ws ∨ cls.takesWs = false then _ else _ : State K) = s4
  have h4 : Good maxDim s4 := by
    have : s4.heap = s.heap := by
      rw [← hs4]
      split_ifs <;> simp [getCps, getWs, prepare_heap, getKvs_heap, getDegrees_heap]
    unfold Good
    rw [this]
    exact h
  split_ifs
  · exact h4
  · exact takeCore_good maxDim s4 _ h4
  all_goals first | exact h4 | exact takeCore_good maxDim s4 _ h4

theorem step_good (maxDim : ℕ) (cls : Cls) (s : State K) (op : Op K) (ho : Spec.Plain maxDim op) (h : Good maxDim s) : Good maxDim (step maxDim cls s op).state := by
  cases op with
  | degrees ds =>
    have hk : Good maxDim (getKvs s).1 := by unfold Good; rw [getKvs_heap]; exact h
    unfold step setDegrees
    dsimp only
    split_ifs
    · exact hk
    · exact safeNewCore_good maxDim cls _ _ hk
  | kvs l =>
    have hk : Good maxDim (getDegrees s).1 := by unfold Good; rw [getDegrees_heap]; exact h
    unfold step setKvs
    dsimp only
    split_ifs
    · exact hk
    · exact safeNewCore_good maxDim cls _ _ hk
  | cps m =>
    unfold step setCps
    dsimp only
    split_ifs
    · exact h
    · exact safeNewCore_good maxDim cls _ _ h
  | ws w =>
    unfold step setWs
    dsimp only
    split_ifs
    · exact h
    · exact safeNewCore_good maxDim cls _ _ h
  | clear => exact h
  | readKvs => unfold step Good; dsimp only; rw [getKvs_heap]; exact h
  | readCps => unfold step Good getCps; dsimp only; rw [prepare_heap]; exact h
  | readMultiIndex =>
    unfold step getMultiIndex
    cases s.data.multiIndex with
    | some m => exact h
    | none => cases s.core <;> exact h
  | modify c =>
    unfold step
    cases s.cur with
    | none => exact h
    | some i =>
      intro c' hc'
      rcases List.mem_or_eq_of_mem_set hc' with h1 | h1
      · exact h c' h1
      · rw [h1]; exact ho
  | editKvs l => exact absurd ho id

theorem run_good (maxDim : ℕ) (cls : Cls) : ∀ (ops : List (Op K)) (s s' : State K), (∀ op ∈ ops, Spec.Plain maxDim op) → Good maxDim s → run maxDim cls s ops = some s' → Good maxDim s'
  | [], s, s', _, hg, hr => by
    simp only [run, List.foldlM_nil, Option.pure_def, Option.some.injEq] at hr
    exact hr ▸ hg
  | op :: ops, s, s', ho, hg, hr => by
    by_cases h : (step maxDim cls s op).raised = true
    · rw [run_cons_raised maxDim cls s op ops h] at hr
      exact absurd hr (by simp)
    · have hstep : step maxDim cls s op = ⟨(step maxDim cls s op).state, false⟩ := by
        cases hh : step maxDim cls s op with
        | mk a b => rw [hh] at h; simp_all
      rw [run_cons maxDim cls s _ op ops hstep] at hr
      exact run_good maxDim cls ops _ s' (fun o h1 => ho o (List.mem_cons_of_mem _ h1)) (step_good maxDim cls s op (ho op List.mem_cons_self) hg) hr

/-! ### The property -/

/-- C132: when a spline can be pickled: it has a core and its knot vectors have not been read since it was made or refined. -/
theorem dumps_iff (s : State K) : (dumps s).isSome ↔ s.core.isSome ∧ ¬ Spec.KnotsRead s := by
  unfold dumps Spec.KnotsRead
  cases s.core with
  | none => simp
  | some c =>
    dsimp only
    cases s.data.kvs with
    | none => simp
    | some k => cases k <;> simp

/-- C132: what a pickled spline is after it has been loaded, for every spline whose properties pass the checks of the constructor, and whatever its caches hold: the same core, and the same
degrees, knot vectors, control points and weights are read from it. -/
theorem roundtrip_partial (maxDim : ℕ) (s : State K) (c : Core K) (hc : s.core = some c) (hr : Spec.Rebuildable maxDim c) (b : Pickled K) (hb : dumps s = some b) :
    ∃ t, loads maxDim b = some t ∧ t.core = some c ∧ (getDegrees t).2 = some c.degrees ∧ (getKvs t).2 = c.kvs ∧ (getCps t).2 = some c.cps ∧ (c.ws.isSome → (getWs t).2 = c.ws) ∧
      (getMultiIndex t).map Prod.snd = (getMultiIndex s).map Prod.snd := by
  have hd := (dumps_iff s).1 (by rw [hb]; rfl)
  have hb' : b = ⟨coreProperties c, s.data⟩ := by
    unfold dumps at hb
    rw [hc] at hb
    dsimp only at hb
    cases hk : s.data.kvs with
    | none => rw [hk] at hb; exact (Option.some.inj hb).symm
    | some k =>
      cases k with
      | plain l => rw [hk] at hb; exact (Option.some.inj hb).symm
      | space j => exact absurd ⟨j, hk⟩ hd.2
  subst hb'
  unfold loads
  have hn : newCore maxDim (coreProperties c) = .created c := hr
  dsimp only
  rw [hn]
  have ht : ∃ t : State K, t = ⟨{ s.data with degrees := some c.degrees, cps := some c.cps, ws := if c.ws.isSome then c.ws else s.data.ws }, [c], some 0⟩ := ⟨_, rfl⟩
  obtain ⟨t, ht⟩ := ht
  have h1 : t.core = some c := by rw [ht]; rfl
  have h2 : t.data.degrees = some c.degrees := by rw [ht]
  have h3 : t.data.cps = some c.cps := by rw [ht]
  have h4 : t.data.kvs = s.data.kvs := by rw [ht]
  have h5 : t.data.ws = if c.ws.isSome then c.ws else s.data.ws := by rw [ht]
  have h6 : t.data.multiIndex = s.data.multiIndex := by rw [ht]
  refine ⟨t, by rw [ht]; rfl, h1, ?_, ?_, ?_, ?_, ?_⟩
  · unfold getDegrees
    rw [h1]
    dsimp only
    rw [h2]
  · unfold getKvs
    rw [h1]
    dsimp only
    cases hck : c.kvs with
    | none => rfl
    | some l =>
      rw [h4]
      cases hk : s.data.kvs with
      | none => rfl
      | some k =>
        cases k with
        | plain _ => rfl
        | space j => exact absurd ⟨j, hk⟩ hd.2
  · unfold getCps prepare
    rw [h1]
    dsimp only
    split_ifs <;> first | rfl | exact h3
  · intro hw
    unfold getWs prepare
    rw [h1]
    dsimp only
    split_ifs <;> first | rfl | (rw [h5, if_pos hw])
  · unfold getMultiIndex
    rw [h6]
    cases s.data.multiIndex with
    | some m => rfl
    | none => rw [hc, h1]; rfl

/-- C132: for every class and every history of assigning, reading, clearing and refining: if the spline can be pickled, loading gives the same spline. Missing: `read_knots_violates`,
`moved_knots_violates`, `options_violates`. -/
theorem history_roundtrip_partial (maxDim : ℕ) (cls : Cls) (ops : List (Op K)) (hops : ∀ op ∈ ops, Spec.Plain maxDim op) (s : State K) (hs : run maxDim cls {} ops = some s)
    (b : Pickled K) (hb : dumps s = some b) : ∃ t, loads maxDim b = some t ∧ t.core = s.core := by
  have hd := (dumps_iff s).1 (by rw [hb]; rfl)
  obtain ⟨c, hc⟩ := Option.isSome_iff_exists.1 hd.1
  have hg := run_good maxDim cls ops {} s hops (by intro c hc; simp at hc) hs
  have hm : c ∈ s.heap := by
    unfold State.core at hc
    cases hcur : s.cur with
    | none => rw [hcur] at hc; simp at hc
    | some i => rw [hcur] at hc; exact List.mem_of_getElem? hc
  obtain ⟨t, h1, h2, _⟩ := roundtrip_partial maxDim s c hc (hg c hm) b hb
  exact ⟨t, h1, by rw [h2, hc]⟩

/-- C132 is violated, for every spline with knot vectors: after reading `knot_vectors` the spline cannot be pickled any more. -/
theorem read_knots_violates (maxDim : ℕ) (cls : Cls) (s : State K) (c : Core K) (hc : s.core = some c) (hk : c.kvs.isSome) :
    (step maxDim cls s .readKvs).raised = false ∧ (step maxDim cls s .readKvs).state.core = some c ∧ dumps (step maxDim cls s .readKvs).state = none := by
  obtain ⟨l, hl⟩ := Option.isSome_iff_exists.1 hk
  obtain ⟨i, hi, hi'⟩ : ∃ i, s.cur = some i ∧ s.heap[i]? = some c := by
    unfold State.core at hc
    cases hcur : s.cur with
    | none => rw [hcur] at hc; simp at hc
    | some i => rw [hcur] at hc; exact ⟨i, rfl, hc⟩
  have hcore : (step maxDim cls s .readKvs).state.core = some c ∧ ∃ j, (step maxDim cls s .readKvs).state.data.kvs = some (.space j) := by
    change (getKvs s).1.core = some c ∧ ∃ j, (getKvs s).1.data.kvs = some (.space j)
    unfold getKvs
    rw [hc]
    dsimp only
    rw [hl]
    dsimp only
    split
    · exact ⟨hc, _, by assumption⟩
    · refine ⟨?_, i, ?_⟩
      · unfold State.core
        dsimp only
        rw [hi]
        exact hi'
      · dsimp only
        rw [hi]
        rfl
  refine ⟨rfl, hcore.1, ?_⟩
  cases h : dumps (step maxDim cls s .readKvs).state with
  | none => rfl
  | some b => exact absurd hcore.2 ((dumps_iff _).1 (by rw [h]; rfl)).2

/-- C132 is violated: a B-spline whose knots have been moved below `-1` can be pickled (after `elevate_degrees`, say), but not loaded. -/
theorem moved_knots_violates (ops : List (Op ℚ))
    (h : ops = [.degrees [1], .kvs [[0, 0, 1, 1]], .cps ⟨1, [[0], [1]]⟩, .editKvs [[-3, -3, -2, -2]], .modify ⟨.bspline, [2], some [[-3, -3, -3, -2, -2, -2]], ⟨1, [[0], [1 / 2], [1]]⟩, none⟩]) :
    ((run 3 .bspline {} ops).bind dumps).isSome ∧ ((run 3 .bspline {} ops).bind dumps).bind (loads 3) = none := by
  subst h
  decide +kernel

/-- C132 is violated for what is stored for plotting: show options and spline data are not pickled. -/
theorem options_violates {V : Type} (maxDim : ℕ) (o o' : Obj K V) (b : Pickled K) (hb : dumpsObj o = some b) (ho : loadsObj V maxDim b = some o')
    (hne : o.options ≠ [] ∨ o.splineData ≠ []) : o'.options ≠ o.options ∨ o'.splineData ≠ o.splineData := by
  unfold loadsObj at ho
  cases hl : loads maxDim b with
  | none => rw [hl] at ho; simp at ho
  | some s =>
    rw [hl] at ho
    obtain rfl := Option.some.inj ho
    rcases hne with h | h
    · exact Or.inl (Ne.symm h)
    · exact Or.inr (Ne.symm h)

/-! ### Cases that meet the hypotheses -/

/-- a NURBS curve that is constructed, pickled and loaded -/
example : (((run 3 .nurbs ({} : State ℚ) [.degrees [1], .kvs [[0, 0, 1, 1]], .cps ⟨1, [[0], [1]]⟩, .ws [1, 2]]).bind dumps).bind (loads 3)).bind State.core =
    some ⟨.nurbs, [1], some [[0, 0, 1, 1]], ⟨1, [[0], [1]]⟩, some [1, 2]⟩ := by
  decide +kernel

example : Spec.Rebuildable 3 (⟨.bspline, [2], some [[0, 0, 0, 1, 1, 1]], ⟨1, [[0], [1 / 2], [1]]⟩, none⟩ : Core ℚ) := by
  unfold Spec.Rebuildable
  decide +kernel

/-- a constructed spline can be pickled; assigning control points to it reads its knot vectors, and after that it cannot be pickled -/
example : (run 3 .bspline ({} : State ℚ) [.degrees [1], .kvs [[0, 0, 0, 0, 1, 1, 1, 1]], .cps ⟨1, [[0], [1], [2], [3], [4], [5]]⟩]).map (fun s => (dumps s).isSome) = some true ∧
    (run 3 .bspline ({} : State ℚ) [.degrees [1], .kvs [[0, 0, 1, 1]], .cps ⟨1, [[0], [1]]⟩, .cps ⟨1, [[0], [2]]⟩]).map (fun s => (dumps s).isSome) = some false := by
  decide +kernel

end Splinepy.Pickle
