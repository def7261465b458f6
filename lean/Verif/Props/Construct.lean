import Verif.Model.SplineCore
import Mathlib.Tactic.Ring
import Mathlib.Tactic.Linarith
import Mathlib.Tactic.SplitIfs
import Mathlib.Data.List.GetD
import Mathlib.Algebra.Order.BigOperators.Group.List
import Mathlib.Algebra.Field.Rat
import Mathlib.Algebra.Order.Ring.Rat

/-!
C19: construction of a spline succeeds iff the properties are consistent. C20: the kind of the spline follows from the properties given.
-/
set_option linter.unusedSectionVars false
set_option linter.unusedSimpArgs false
namespace Splinepy

namespace Spec
open SplineCore
variable {K : Type} [Field K] [LinearOrder K]

/-- consistency of the knot vectors with degrees and number of control points -/
def KnotVectorsFit (ds : List Int) (n : ℕ) (kvs : List (List K)) : Prop :=
  kvs.length = ds.length ∧
  (∀ dk ∈ ds.zip kvs, dk.2.Pairwise (· ≤ ·) ∧ 2 * (dk.1 + 1) ≤ (dk.2.length : Int)) ∧
  (n : Int) = ((ds.zip kvs).map (fun dk => (dk.2.length : Int) - dk.1 - 1)).prod

/-- the properties are consistent -/
def ConsistentProps (ds : List Int) (cps : Mat K) (kvs : Option (List (List K))) (ws : Option (List K)) : Prop :=
  (∀ d ∈ ds, 0 ≤ d) ∧
  (∀ l, kvs = some l → KnotVectorsFit ds cps.rows.length l) ∧
  (kvs = none → (cps.rows.length : Int) = (ds.map (· + 1)).prod) ∧
  (∀ w, ws = some w → w.length = cps.rows.length)

/-- what the compiled library supports: at least one and at most `maxDim` parametric dimensions, points of at least one dimension, for splines without knot
vectors at most `maxDim` -/
def SupportedDims (maxDim : ℕ) (paraDim dim : ℕ) (hasKvs : Bool) : Prop :=
  1 ≤ paraDim ∧ paraDim ≤ maxDim ∧ 1 ≤ dim ∧ (hasKvs = false → dim ≤ maxDim)

end Spec

namespace SplineCore
variable {K : Type} [Field K] [LinearOrder K] [IsStrictOrderedRing K]

theorem knotsOk_iff (prev : K) (l : List K) : knotsOk prev l = true ↔ (l.Pairwise (· ≤ ·) ∧ ∀ k ∈ l, prev ≤ k) := by
  induction l generalizing prev with
  | nil => simp [knotsOk]
  | cons k ks ih =>
    simp only [knotsOk, List.pairwise_cons, List.mem_cons, forall_eq_or_imp]
    by_cases h : prev - k > 0
    · rw [if_pos h]
      constructor
      · intro h'; cases h'
      · rintro ⟨_, h1, _⟩; linarith
    · rw [if_neg h, ih]
      constructor
      · rintro ⟨h1, h2⟩
        exact ⟨⟨h2, h1⟩, by linarith, fun a ha => le_trans (by linarith) (h2 a ha)⟩
      · rintro ⟨⟨h1, h2⟩, _, _⟩
        exact ⟨h2, h1⟩

theorem kvLoop_iff (kvs : List (List K)) (ds : List Int) (i : ℕ) (acc n : Int) :
    kvLoop kvs i ds acc = some n ↔
      ((∀ d ∈ ds, 0 ≤ d) ∧ ds.length ≤ (kvs.drop i).length ∧
        (∀ dk ∈ ds.zip (kvs.drop i), dk.2.Pairwise (· ≤ ·) ∧ (∀ k ∈ dk.2, -1 ≤ k) ∧ 2 * (dk.1 + 1) ≤ (dk.2.length : Int)) ∧
        n = acc * ((ds.zip (kvs.drop i)).map (fun dk => (dk.2.length : Int) - dk.1 - 1)).prod) := by
  induction ds generalizing i acc with
  | nil => simp [kvLoop, eq_comm]
  | cons d ds ih =>
    simp only [kvLoop]
    by_cases hd : d < 0
    · rw [if_pos hd]
      constructor
      · intro h; cases h
      · rintro ⟨h, _⟩
        have := h d (by simp)
        omega
    · rw [if_neg hd]
      rcases hk : kvs[i]? with _ | kv
      · simp only
        constructor
        · intro h; cases h
        · rintro ⟨_, h, _⟩
          rw [List.getElem?_eq_none_iff] at hk
          simp at h
          omega
      · obtain ⟨hi, hkv⟩ := List.getElem?_eq_some_iff.1 hk
        have hdrop : kvs.drop i = kv :: kvs.drop (i + 1) := by
          rw [List.drop_eq_getElem_cons hi, hkv]
        simp only
        rw [hdrop, List.zip_cons_cons, List.map_cons, List.prod_cons]
        by_cases hs : knotsOk (-1) kv = false
        · rw [if_pos hs]
          constructor
          · intro h; cases h
          · rintro ⟨_, _, h, _⟩
            have h0 := h (d, kv) (by simp)
            have := (knotsOk_iff (-1) kv).2 ⟨h0.1, h0.2.1⟩
            rw [this] at hs; cases hs
        · rw [if_neg hs]
          have hs' : knotsOk (-1) kv = true := by simpa using hs
          have hs2 := (knotsOk_iff (-1) kv).1 hs'
          by_cases hl : (kv.length : Int) < 2 * (d + 1)
          · rw [if_pos hl]
            constructor
            · intro h; cases h
            · rintro ⟨_, _, h, _⟩
              have h0 := (h (d, kv) (by simp)).2.2
              simp only at h0
              omega
          · rw [if_neg hl, ih]
            simp only [List.mem_cons, forall_eq_or_imp, List.length_cons]
            constructor
            · rintro ⟨h1, h2, h3, h4⟩
              refine ⟨⟨by omega, h1⟩, by omega, ⟨⟨hs2.1, hs2.2, by omega⟩, h3⟩, ?_⟩
              rw [h4]; ring
            · rintro ⟨⟨_, h1⟩, h2, ⟨_, h3⟩, h4⟩
              refine ⟨h1, by omega, h3, ?_⟩
              rw [h4]; ring

theorem degLoop_iff (ds : List Int) (acc n : Int) :
    degLoop ds acc = some n ↔ ((∀ d ∈ ds, 0 ≤ d) ∧ n = acc * (ds.map (· + 1)).prod) := by
  induction ds generalizing acc with
  | nil => simp [degLoop, eq_comm]
  | cons d ds ih =>
    simp only [degLoop]
    by_cases hd : d < 0
    · rw [if_pos hd]
      constructor
      · intro h; cases h
      · rintro ⟨h, _⟩
        have := h d (by simp)
        omega
    · rw [if_neg hd, ih]
      simp only [List.mem_cons, forall_eq_or_imp, List.map_cons, List.prod_cons]
      constructor
      · rintro ⟨h1, h2⟩
        exact ⟨⟨by omega, h1⟩, by rw [h2]; ring⟩
      · rintro ⟨⟨_, h1⟩, h2⟩
        exact ⟨h1, by rw [h2]; ring⟩

theorem dispatch_knots (k w : Bool) : (dispatch k w = .bezier ∨ dispatch k w = .rationalBezier) ↔ k = false := by
  cases k <;> cases w <;> simp [dispatch]

theorem dimsSupported_iff (maxDim : ℕ) (k w : Bool) (pd d : ℕ) (hd : 1 ≤ d) :
    dimsSupported maxDim (dispatch k w) pd d = true ↔ Spec.SupportedDims maxDim pd d k := by
  cases k <;> cases w <;> simp [dispatch, dimsSupported, Spec.SupportedDims, hd, and_assoc]

/-- the core creation: exactly the consistent properties with knots from -1 on -/
theorem newCore_created_iff (maxDim : ℕ) (ds : List Int) (cps : Mat K) (kvs : Option (List (List K))) (ws : Option (List K)) (c : Core K)
    (hl : ∀ l, kvs = some l → l.length = ds.length) :
    newCore maxDim ⟨some ds, kvs, some cps, ws⟩ = .created c ↔
      (Spec.ConsistentProps ds cps kvs ws ∧ Spec.SupportedDims maxDim ds.length cps.dim kvs.isSome ∧
        (∀ l, kvs = some l → ∀ kv ∈ l, ∀ k ∈ kv, -1 ≤ k) ∧
        c = ⟨dispatch kvs.isSome ws.isSome, ds, kvs, cps, ws⟩) := by
  have htake : kvs.map (·.take ds.length) = kvs := by
    cases kvs with
    | none => rfl
    | some l => simp [← hl l rfl]
  simp only [newCore]
  by_cases hdim : cps.dim = 0
  · rw [if_pos hdim]
    constructor
    · intro h; cases h
    · rintro ⟨_, h, _⟩
      have := h.2.2.1
      omega
  rw [if_neg hdim, htake]
  have hcount : ((∃ n, requiredNcps kvs ds = some n ∧ (cps.rows.length : Int) = n) ↔
      ((∀ d ∈ ds, 0 ≤ d) ∧ (∀ l, kvs = some l → Spec.KnotVectorsFit ds cps.rows.length l) ∧
        (kvs = none → (cps.rows.length : Int) = (ds.map (· + 1)).prod) ∧ (∀ l, kvs = some l → ∀ kv ∈ l, ∀ k ∈ kv, -1 ≤ k))) := by
    cases kvs with
    | none =>
      simp only [requiredNcps, degLoop_iff]
      constructor
      · rintro ⟨n, ⟨h1, h2⟩, h3⟩
        exact ⟨h1, by simp, fun _ => by rw [h3, h2]; ring, by simp⟩
      · rintro ⟨h1, _, h3, _⟩
        exact ⟨_, ⟨h1, rfl⟩, by rw [h3 trivial]; ring⟩
    | some l =>
      simp only [requiredNcps, kvLoop_iff, List.drop_zero]
      have hll := hl l rfl
      constructor
      · rintro ⟨n, ⟨h1, h2, h3, h4⟩, h5⟩
        refine ⟨h1, ?_, by simp, ?_⟩
        · rintro _ ⟨⟩
          exact ⟨hll, fun dk hdk => ⟨(h3 dk hdk).1, (h3 dk hdk).2.2⟩, by rw [h5, h4]; ring⟩
        · rintro _ ⟨⟩ kv hkv
          have : (ds.zip l).map Prod.snd = l := List.map_snd_zip (by omega)
          rw [← this] at hkv
          obtain ⟨dk, hdk, rfl⟩ := List.mem_map.1 hkv
          exact (h3 dk hdk).2.1
      · rintro ⟨h1, h2, _, h4⟩
        obtain ⟨ha, hb, hc⟩ := h2 l rfl
        refine ⟨_, ⟨h1, by omega, ?_, rfl⟩, by rw [hc]; ring⟩
        intro dk hdk
        exact ⟨(hb dk hdk).1, h4 l rfl dk.2 (List.of_mem_zip (a := dk.1) (b := dk.2) hdk).2, (hb dk hdk).2⟩
  generalize requiredNcps kvs ds = r at hcount ⊢
  unfold Spec.ConsistentProps
  cases r with
  | none =>
    simp only
    constructor
    · intro h; cases h
    · rintro ⟨⟨h1, h2, h3, h4⟩, _, h5, _⟩
      obtain ⟨n, hn, _⟩ := hcount.2 ⟨h1, h2, h3, h5⟩
      cases hn
  | some n =>
    simp only [Option.some.injEq, exists_eq_left'] at hcount
    simp only
    by_cases hn : (cps.rows.length : Int) = n
    · rw [if_neg (by simpa using hn)]
      obtain ⟨c1, c2, c3, c4⟩ := hcount.1 hn
      cases ws with
      | none =>
        simp only [Option.isSome_none]
        by_cases hd : dimsSupported maxDim (dispatch kvs.isSome false) ds.length cps.dim = true
        · rw [if_pos hd]
          rw [dimsSupported_iff maxDim _ _ _ _ (by omega)] at hd
          constructor
          · rintro ⟨⟩
            exact ⟨⟨c1, c2, c3, by simp⟩, hd, c4, rfl⟩
          · rintro ⟨_, _, _, rfl⟩; rfl
        · rw [if_neg hd]
          rw [dimsSupported_iff maxDim _ _ _ _ (by omega)] at hd
          constructor
          · intro h; cases h
          · rintro ⟨_, h, _⟩; exact absurd h hd
      | some w =>
        simp only [Option.isSome_some, Option.some.injEq, forall_eq']
        by_cases hw : w.length = cps.rows.length
        · rw [if_neg (by simpa using hw)]
          by_cases hd : dimsSupported maxDim (dispatch kvs.isSome true) ds.length cps.dim = true
          · rw [if_pos hd]
            rw [dimsSupported_iff maxDim _ _ _ _ (by omega)] at hd
            constructor
            · rintro ⟨⟩
              exact ⟨⟨c1, c2, c3, hw⟩, hd, c4, rfl⟩
            · rintro ⟨_, _, _, rfl⟩; rfl
          · rw [if_neg hd]
            rw [dimsSupported_iff maxDim _ _ _ _ (by omega)] at hd
            constructor
            · intro h; cases h
            · rintro ⟨_, h, _⟩; exact absurd h hd
        · rw [if_pos hw]
          constructor
          · intro h; cases h
          · rintro ⟨⟨_, _, _, h⟩, _⟩; exact absurd h hw
    · rw [if_pos hn]
      constructor
      · intro h; cases h
      · rintro ⟨⟨h1, h2, h3, _⟩, _, h5, _⟩
        exact absurd (hcount.2 ⟨h1, h2, h3, h5⟩) hn

/-- a class gets exactly properties of the kinds it takes, and all it requires -/
def Given (cls : Cls) (p : Props K) : Prop :=
  p.degrees.isSome ∧ p.cps.isSome ∧ (cls.requiresKvs = true → p.kvs.isSome) ∧ (cls.requiresWs = true → p.ws.isSome) ∧
    (cls.takesKvs = false → p.kvs = none) ∧ (cls.takesWs = false → p.ws = none)

theorem newCore_skipped (maxDim : ℕ) (p : Props K) (h : p.degrees = none ∨ p.cps = none) : newCore maxDim p = .skipped := by
  obtain ⟨d, k, c, w⟩ := p
  cases d <;> cases c <;> simp_all [newCore]

theorem getKvs_nocore (s : State K) (h : s.cur = none) : getKvs s = (s, s.data.kvs.bind (·.value s.heap)) := by
  simp [getKvs, State.core, h]

theorem getDegrees_nocore (s : State K) (h : s.cur = none) : getDegrees s = (s, s.data.degrees) := by
  simp [getDegrees, State.core, h]

theorem prepare_nocore (s : State K) (h : s.cur = none) : prepare s = s := by
  simp [prepare, State.core, h]

theorem safeNewCore_nocore (maxDim : ℕ) (cls : Cls) (x : Prop') (s : State K) (h : s.cur = none) :
    safeNewCore maxDim cls x s = pyNewCore maxDim cls s := by
  simp [safeNewCore, getKvs_nocore, getDegrees_nocore, getCps, getWs, prepare_nocore, h]

/-- `pyNewCore` where nothing happens -/
theorem pyNewCore_incomplete (maxDim : ℕ) (cls : Cls) (s : State K)
    (h : s.data.degrees = none ∨ s.data.cps = none ∨ (cls.requiresKvs = true ∧ s.data.kvs = none) ∨ (cls.requiresWs = true ∧ s.data.ws = none)) :
    pyNewCore maxDim cls s = ⟨s, false⟩ := by
  unfold pyNewCore
  by_cases hc : cls = .spline
  · subst hc
    simp only [Cls.requiresKvs, Cls.requiresWs, Bool.false_eq_true, false_and, or_false] at h
    rw [if_neg (by simp), newCore_skipped _ _ (by simpa using h)]
    rfl
  · rw [if_pos]
    refine ⟨hc, ?_⟩
    rcases h with h | h | ⟨h1, h⟩ | ⟨h1, h⟩ <;> simp [h, *]

/-- `pyNewCore` with everything there -/
theorem pyNewCore_complete (maxDim : ℕ) (cls : Cls) (s : State K) (p : Props K) (hg : Given cls p)
    (h1 : s.data.degrees = p.degrees) (h2 : s.data.kvs.bind (·.value s.heap) = p.kvs) (h3 : s.data.cps = p.cps) (h4 : s.data.ws = p.ws) :
    pyNewCore maxDim cls s = takeCore s (newCore maxDim p) := by
  obtain ⟨d, k, c, w⟩ := p
  obtain ⟨g1, g2, g3, g4, g5, g6⟩ := hg
  simp only at *
  unfold pyNewCore
  rw [if_neg]
  · rw [h1, h2, h3, h4]
    have e1 : (if cls.takesKvs = true then k else none) = k := by
      split_ifs with h
      · rfl
      · rw [g5 (by simpa using h)]
    have e2 : (if cls.takesWs = true then w else none) = w := by
      split_ifs with h
      · rfl
      · rw [g6 (by simpa using h)]
    rw [e1, e2]
  · rintro ⟨_, h⟩
    rw [h1, h2, h3, h4, g1, g2] at h
    cases hk : cls.requiresKvs <;> cases hw : cls.requiresWs <;> simp_all

theorem run_cons (maxDim : ℕ) (cls : Cls) (s s' : State K) (op : Op K) (ops : List (Op K)) (h : step maxDim cls s op = ⟨s', false⟩) :
    run maxDim cls s (op :: ops) = run maxDim cls s' ops := by
  simp [run, h]

theorem run_cons_raised (maxDim : ℕ) (cls : Cls) (s : State K) (op : Op K) (ops : List (Op K)) (h : (step maxDim cls s op).raised = true) :
    run maxDim cls s (op :: ops) = none := by
  simp [run, h]

/-- a setter without core, all but the creation of the core -/
theorem set_nocore (maxDim : ℕ) (cls : Cls) (s : State K) (h : s.cur = none) :
    (∀ ds, (∀ l, s.data.kvs.bind (·.value s.heap) = some l → l.length = ds.length) →
      step maxDim cls s (.degrees ds) = pyNewCore maxDim cls { s with data := { s.data with degrees := some ds } }) ∧
    (∀ l, (∀ ds, s.data.degrees = some ds → l.length = ds.length) →
      step maxDim cls s (.kvs l) = pyNewCore maxDim cls { s with data := { s.data with kvs := some (.plain l) } }) ∧
    (∀ m, (∀ w, s.data.ws = some w → w.length = m.rows.length) →
      step maxDim cls s (.cps m) = pyNewCore maxDim cls { s with data := { s.data with cps := some m } }) ∧
    (∀ w, (∀ m, s.data.cps = some m → m.rows.length = w.length) →
      step maxDim cls s (.ws w) = pyNewCore maxDim cls { s with data := { s.data with ws := some w } }) := by
  refine ⟨fun ds hd => ?_, fun l hl => ?_, fun m hm => ?_, fun w hw => ?_⟩
  · simp only [step, setDegrees, getKvs_nocore s h]
    rw [if_neg, safeNewCore_nocore _ _ _ _ (by exact h)]
    cases hx : s.data.kvs.bind (·.value s.heap) with
    | none => simp [mismatch]
    | some l => simp [mismatch, hd l hx]
  · simp only [step, setKvs, getDegrees_nocore s h]
    rw [if_neg, safeNewCore_nocore _ _ _ _ (by exact h)]
    cases hx : s.data.degrees with
    | none => simp [mismatch]
    | some l => simp [mismatch, hl l hx]
  · simp only [step, setCps]
    rw [if_neg, safeNewCore_nocore _ _ _ _ (by exact h)]
    cases hx : s.data.ws with
    | none => simp [mismatch]
    | some l => simp [mismatch, hm l hx]
  · simp only [step, setWs]
    rw [if_neg, safeNewCore_nocore _ _ _ _ (by exact h)]
    cases hx : s.data.cps with
    | none => simp [mismatch]
    | some l => simp [mismatch, hw l hx]

/-- the state after a construction -/
def built (p : Props K) (c : Core K) : State K := ⟨⟨p.degrees, p.kvs.map .plain, p.cps, p.ws, none⟩, [c], some 0⟩

theorem bind_value_plain (heap : List (Core K)) (kvs : Option (List (List K))) : (kvs.map KvData.plain).bind (·.value heap) = kvs := by
  cases kvs <;> rfl

theorem run_last (maxDim : ℕ) (cls : Cls) (s : State K) (op : Op K) :
    run maxDim cls s [op] = if (step maxDim cls s op).raised then none else some (step maxDim cls s op).state := by
  simp only [run, List.foldlM_cons, List.foldlM_nil]
  cases (step maxDim cls s op).raised <;> simp

/-- one property, the set is not complete yet -/
theorem run_set (maxDim : ℕ) (cls : Cls) (s : State K) (h : s.cur = none) (ops : List (Op K)) :
    (∀ ds, (∀ l, s.data.kvs.bind (·.value s.heap) = some l → l.length = ds.length) →
      (s.data.cps = none ∨ (cls.requiresKvs = true ∧ s.data.kvs = none) ∨ (cls.requiresWs = true ∧ s.data.ws = none)) →
      run maxDim cls s (.degrees ds :: ops) = run maxDim cls { s with data := { s.data with degrees := some ds } } ops) ∧
    (∀ l, (∀ ds, s.data.degrees = some ds → l.length = ds.length) →
      (s.data.degrees = none ∨ s.data.cps = none ∨ (cls.requiresWs = true ∧ s.data.ws = none)) →
      run maxDim cls s (.kvs l :: ops) = run maxDim cls { s with data := { s.data with kvs := some (.plain l) } } ops) ∧
    (∀ m, (∀ w, s.data.ws = some w → w.length = m.rows.length) →
      (s.data.degrees = none ∨ (cls.requiresKvs = true ∧ s.data.kvs = none) ∨ (cls.requiresWs = true ∧ s.data.ws = none)) →
      run maxDim cls s (.cps m :: ops) = run maxDim cls { s with data := { s.data with cps := some m } } ops) ∧
    (∀ w, (∀ m, s.data.cps = some m → m.rows.length = w.length) →
      (s.data.degrees = none ∨ s.data.cps = none ∨ (cls.requiresKvs = true ∧ s.data.kvs = none)) →
      run maxDim cls s (.ws w :: ops) = run maxDim cls { s with data := { s.data with ws := some w } } ops) := by
  obtain ⟨a, b, c, d⟩ := set_nocore maxDim cls s h
  refine ⟨fun ds h1 h2 => ?_, fun ds h1 h2 => ?_, fun ds h1 h2 => ?_, fun ds h1 h2 => ?_⟩
  · rw [run_cons _ _ _ _ _ _ ((a ds h1).trans (pyNewCore_incomplete _ _ _ (Or.inr h2)))]
  · rw [run_cons _ _ _ _ _ _ ((b ds h1).trans (pyNewCore_incomplete _ _ _ ?_))]
    rcases h2 with h2 | h2 | h2
    · exact Or.inl h2
    · exact Or.inr (Or.inl h2)
    · exact Or.inr (Or.inr (Or.inr h2))
  · rw [run_cons _ _ _ _ _ _ ((c ds h1).trans (pyNewCore_incomplete _ _ _ ?_))]
    rcases h2 with h2 | h2
    · exact Or.inl h2
    · exact Or.inr (Or.inr h2)
  · rw [run_cons _ _ _ _ _ _ ((d ds h1).trans (pyNewCore_incomplete _ _ _ ?_))]
    rcases h2 with h2 | h2 | h2
    · exact Or.inl h2
    · exact Or.inr (Or.inl h2)
    · exact Or.inr (Or.inr (Or.inl h2))

/-- the setters called by the constructor come down to one creation of a core, if the lengths checked in Python fit -/
theorem construct_eq (maxDim : ℕ) (cls : Cls) (ds : List Int) (cps : Mat K) (kvs : Option (List (List K))) (ws : Option (List K))
    (hg : Given cls ⟨some ds, kvs, some cps, ws⟩)
    (hk : ∀ l, kvs = some l → l.length = ds.length) (hw : ∀ w, ws = some w → w.length = cps.rows.length) (r : Res K)
    (hr : takeCore ⟨⟨some ds, kvs.map .plain, some cps, ws, none⟩, [], none⟩ (newCore maxDim ⟨some ds, kvs, some cps, ws⟩) = r) :
    construct maxDim cls ⟨some ds, kvs, some cps, ws⟩ = if r.raised then none else some r.state := by
  obtain ⟨-, -, g3, g4, g5, g6⟩ := id hg
  simp only at g3 g4 g5 g6
  have hfin : pyNewCore maxDim cls ⟨⟨some ds, kvs.map .plain, some cps, ws, none⟩, [], none⟩ = r := by
    rw [← hr]
    exact pyNewCore_complete maxDim cls _ _ hg rfl (bind_value_plain _ _) rfl rfl
  cases cls with
  | bezier =>
    have := g5 rfl; have := g6 rfl; subst kvs ws
    simp only [construct, reduceCtorEq, if_false, Cls.takesKvs, Cls.takesWs, Option.map_some, Option.toList_some, List.append_nil,
      List.singleton_append, Bool.false_eq_true]
    rw [(run_set maxDim _ _ rfl _).1 ds (by simp) (by simp), run_last, (set_nocore maxDim _ _ (by rfl)).2.2.1 cps (by simp)]
    rw [← hfin]; rfl
  | rationalBezier =>
    have := g5 rfl; subst kvs
    obtain ⟨w, rfl⟩ := Option.isSome_iff_exists.1 (g4 rfl)
    have hw' := hw w rfl
    simp only [construct, reduceCtorEq, if_false, Cls.takesKvs, Cls.takesWs, Option.map_some, Option.toList_some, List.append_nil,
      List.singleton_append, List.append_assoc, List.cons_append, Bool.false_eq_true, if_true, List.nil_append]
    rw [(run_set maxDim _ _ rfl _).1 ds (by simp) (by simp), (run_set maxDim _ _ (by rfl) _).2.2.1 cps (by simp) (by simp [Cls.requiresWs]), run_last,
      (set_nocore maxDim _ _ (by rfl)).2.2.2 w (by simp [hw'])]
    rw [← hfin]; rfl
  | bspline =>
    have := g6 rfl; subst ws
    obtain ⟨l, rfl⟩ := Option.isSome_iff_exists.1 (g3 rfl)
    have hk' := hk l rfl
    simp only [construct, reduceCtorEq, if_false, Cls.takesKvs, Cls.takesWs, Option.map_some, Option.toList_some, List.append_nil,
      List.singleton_append, List.append_assoc, List.cons_append, Bool.false_eq_true, if_true, List.nil_append]
    rw [(run_set maxDim _ _ rfl _).1 ds (by simp) (by simp), (run_set maxDim _ _ (by rfl) _).2.1 l (by simp [hk']) (by simp), run_last,
      (set_nocore maxDim _ _ (by rfl)).2.2.1 cps (by simp)]
    rw [← hfin]; rfl
  | nurbs =>
    obtain ⟨l, rfl⟩ := Option.isSome_iff_exists.1 (g3 rfl)
    obtain ⟨w, rfl⟩ := Option.isSome_iff_exists.1 (g4 rfl)
    have hw' := hw w rfl
    have hk' := hk l rfl
    simp only [construct, reduceCtorEq, if_false, Cls.takesKvs, Cls.takesWs, Option.map_some, Option.toList_some, List.append_nil,
      List.singleton_append, List.append_assoc, List.cons_append, Bool.false_eq_true, if_true, List.nil_append]
    rw [(run_set maxDim _ _ rfl _).1 ds (by simp) (by simp), (run_set maxDim _ _ (by rfl) _).2.1 l (by simp [hk']) (by simp),
      (run_set maxDim _ _ (by rfl) _).2.2.1 cps (by simp) (by simp [Cls.requiresWs]), run_last,
      (set_nocore maxDim _ _ (by rfl)).2.2.2 w (by simp [hw'])]
    rw [← hfin]; rfl
  | spline =>
    rcases kvs with _ | l <;> rcases ws with _ | w
    · simp only [construct, Cls.takesKvs, Cls.takesWs, Option.map_some, Option.toList_some, List.append_nil,
        List.singleton_append, List.append_assoc, List.cons_append, if_true, List.nil_append, Option.map_none, Option.toList_none]
      rw [(run_set maxDim _ _ rfl _).2.2.1 cps (by simp) (by simp), run_last, (set_nocore maxDim _ _ (by rfl)).1 ds (by simp)]
      rw [← hfin]; rfl
    · have hw' := hw w rfl
      simp only [construct, Cls.takesKvs, Cls.takesWs, Option.map_some, Option.toList_some, List.append_nil,
        List.singleton_append, List.append_assoc, List.cons_append, if_true, List.nil_append, Option.map_none, Option.toList_none]
      rw [(run_set maxDim _ _ rfl _).2.2.2 w (by simp) (by simp), (run_set maxDim _ _ (by rfl) _).2.2.1 cps (by simp [hw']) (by simp), run_last,
        (set_nocore maxDim _ _ (by rfl)).1 ds (by simp)]
      rw [← hfin]; rfl
    · have hk' := hk l rfl
      simp only [construct, Cls.takesKvs, Cls.takesWs, Option.map_some, Option.toList_some, List.append_nil,
        List.singleton_append, List.append_assoc, List.cons_append, if_true, List.nil_append, Option.map_none, Option.toList_none]
      rw [(run_set maxDim _ _ rfl _).2.2.1 cps (by simp) (by simp), (run_set maxDim _ _ (by rfl) _).2.1 l (by simp) (by simp), run_last,
        (set_nocore maxDim _ _ (by rfl)).1 ds (by simp [KvData.value, hk'])]
      rw [← hfin]; rfl
    · have hw' := hw w rfl
      have hk' := hk l rfl
      simp only [construct, Cls.takesKvs, Cls.takesWs, Option.map_some, Option.toList_some, List.append_nil,
        List.singleton_append, List.append_assoc, List.cons_append, if_true, List.nil_append]
      rw [(run_set maxDim _ _ rfl _).2.2.2 w (by simp) (by simp), (run_set maxDim _ _ (by rfl) _).2.2.1 cps (by simp [hw']) (by simp),
        (run_set maxDim _ _ (by rfl) _).2.1 l (by simp) (by simp), run_last, (set_nocore maxDim _ _ (by rfl)).1 ds (by simp [KvData.value, hk'])]
      rw [← hfin]; rfl

/-- the length checks in Python -/
theorem set_raises (maxDim : ℕ) (cls : Cls) (s : State K) (h : s.cur = none) :
    (∀ ds l, s.data.kvs.bind (·.value s.heap) = some l → l.length ≠ ds.length → (step maxDim cls s (.degrees ds)).raised = true) ∧
    (∀ l ds, s.data.degrees = some ds → l.length ≠ ds.length → (step maxDim cls s (.kvs l)).raised = true) ∧
    (∀ m w, s.data.ws = some w → w.length ≠ m.rows.length → (step maxDim cls s (.cps m)).raised = true) ∧
    (∀ w m, s.data.cps = some m → m.rows.length ≠ w.length → (step maxDim cls s (.ws w)).raised = true) := by
  refine ⟨fun ds l h1 h2 => ?_, fun l ds h1 h2 => ?_, fun m w h1 h2 => ?_, fun w m h1 h2 => ?_⟩
  · simp [step, mismatch, setDegrees, getKvs_nocore s h, h1, h2]
  · simp [step, mismatch, setKvs, getDegrees_nocore s h, h1, h2.symm]
  · simp [step, mismatch, setCps, h1, h2]
  · simp [step, mismatch, setWs, h1, h2]

theorem construct_none (maxDim : ℕ) (cls : Cls) (ds : List Int) (cps : Mat K) (kvs : Option (List (List K))) (ws : Option (List K))
    (hg : Given cls ⟨some ds, kvs, some cps, ws⟩)
    (hbad : (∃ l, kvs = some l ∧ l.length ≠ ds.length) ∨
      ((∀ l, kvs = some l → l.length = ds.length) ∧ ∃ w, ws = some w ∧ w.length ≠ cps.rows.length)) :
    construct maxDim cls ⟨some ds, kvs, some cps, ws⟩ = none := by
  obtain ⟨-, -, g3, g4, g5, g6⟩ := id hg
  simp only at g3 g4 g5 g6
  cases cls with
  | bezier =>
    have := g5 rfl; have := g6 rfl; subst kvs ws
    simp at hbad
  | rationalBezier =>
    have := g5 rfl; subst kvs
    obtain ⟨w, rfl⟩ := Option.isSome_iff_exists.1 (g4 rfl)
    simp only [reduceCtorEq, false_and, exists_false, false_or, Option.some.injEq, exists_eq_left', false_implies, implies_true, true_and] at hbad
    simp only [construct, reduceCtorEq, if_false, Cls.takesKvs, Cls.takesWs, Option.map_some, Option.toList_some, List.append_nil,
      List.singleton_append, List.append_assoc, List.cons_append, Bool.false_eq_true, if_true, List.nil_append]
    rw [(run_set maxDim _ _ rfl _).1 ds (by simp) (by simp), (run_set maxDim _ _ (by rfl) _).2.2.1 cps (by simp) (by simp [Cls.requiresWs]),
      run_cons_raised]
    exact (set_raises maxDim _ _ (by rfl)).2.2.2 w cps rfl (Ne.symm hbad)
  | bspline =>
    have := g6 rfl; subst ws
    obtain ⟨l, rfl⟩ := Option.isSome_iff_exists.1 (g3 rfl)
    simp at hbad
    simp only [construct, reduceCtorEq, if_false, Cls.takesKvs, Cls.takesWs, Option.map_some, Option.toList_some, List.append_nil,
      List.singleton_append, List.append_assoc, List.cons_append, Bool.false_eq_true, if_true, List.nil_append]
    rw [(run_set maxDim _ _ rfl _).1 ds (by simp) (by simp), run_cons_raised]
    exact (set_raises maxDim _ _ (by rfl)).2.1 l ds rfl hbad
  | nurbs =>
    obtain ⟨l, rfl⟩ := Option.isSome_iff_exists.1 (g3 rfl)
    obtain ⟨w, rfl⟩ := Option.isSome_iff_exists.1 (g4 rfl)
    simp only [Option.some.injEq, exists_eq_left', forall_eq'] at hbad
    simp only [construct, reduceCtorEq, if_false, Cls.takesKvs, Cls.takesWs, Option.map_some, Option.toList_some, List.append_nil,
      List.singleton_append, List.append_assoc, List.cons_append, Bool.false_eq_true, if_true, List.nil_append]
    rcases hbad with hbad | ⟨hk', hbad⟩
    · rw [(run_set maxDim _ _ rfl _).1 ds (by simp) (by simp), run_cons_raised]
      exact (set_raises maxDim _ _ (by rfl)).2.1 l ds rfl hbad
    · rw [(run_set maxDim _ _ rfl _).1 ds (by simp) (by simp), (run_set maxDim _ _ (by rfl) _).2.1 l (by simp [hk']) (by simp),
        (run_set maxDim _ _ (by rfl) _).2.2.1 cps (by simp) (by simp [Cls.requiresWs]), run_cons_raised]
      exact (set_raises maxDim _ _ (by rfl)).2.2.2 w cps rfl (Ne.symm hbad)
  | spline =>
    rcases kvs with _ | l <;> rcases ws with _ | w
    · simp at hbad
    · simp only [reduceCtorEq, false_and, exists_false, false_or, Option.some.injEq, exists_eq_left', false_implies, implies_true, true_and] at hbad
      simp only [construct, Cls.takesKvs, Cls.takesWs, Option.map_some, Option.toList_some, List.append_nil,
        List.singleton_append, List.append_assoc, List.cons_append, if_true, List.nil_append, Option.map_none, Option.toList_none]
      rw [(run_set maxDim _ _ rfl _).2.2.2 w (by simp) (by simp), run_cons_raised]
      exact (set_raises maxDim _ _ (by rfl)).2.2.1 cps w rfl hbad
    · simp at hbad
      simp only [construct, Cls.takesKvs, Cls.takesWs, Option.map_some, Option.toList_some, List.append_nil,
        List.singleton_append, List.append_assoc, List.cons_append, if_true, List.nil_append, Option.map_none, Option.toList_none]
      rw [(run_set maxDim _ _ rfl _).2.2.1 cps (by simp) (by simp), (run_set maxDim _ _ (by rfl) _).2.1 l (by simp) (by simp), run_cons_raised]
      exact (set_raises maxDim _ _ (by rfl)).1 ds l rfl hbad
    · simp only [Option.some.injEq, exists_eq_left', forall_eq'] at hbad
      simp only [construct, Cls.takesKvs, Cls.takesWs, Option.map_some, Option.toList_some, List.append_nil,
        List.singleton_append, List.append_assoc, List.cons_append, if_true, List.nil_append]
      by_cases hw' : w.length = cps.rows.length
      · rcases hbad with hbad | ⟨_, hbad⟩
        · rw [(run_set maxDim _ _ rfl _).2.2.2 w (by simp) (by simp), (run_set maxDim _ _ (by rfl) _).2.2.1 cps (by simp [hw']) (by simp),
            (run_set maxDim _ _ (by rfl) _).2.1 l (by simp) (by simp), run_cons_raised]
          exact (set_raises maxDim _ _ (by rfl)).1 ds l rfl hbad
        · exact absurd hw' hbad
      · rw [(run_set maxDim _ _ rfl _).2.2.2 w (by simp) (by simp), run_cons_raised]
        exact (set_raises maxDim _ _ (by rfl)).2.2.1 cps w rfl hw'

/-- C19, what the code does: constructing a spline of any class with the properties the class takes succeeds iff the properties are consistent, the dimensions are supported by the
compiled library, and no knot is below -1. The property asks for no condition on the position of the knots: see `knots_below_violates`. -/
theorem construction_accepts_partial (maxDim : ℕ) (cls : Cls) (ds : List Int) (cps : Mat K) (kvs : Option (List (List K))) (ws : Option (List K))
    (hg : Given cls ⟨some ds, kvs, some cps, ws⟩) :
    (construct maxDim cls ⟨some ds, kvs, some cps, ws⟩).isSome ↔
      (Spec.ConsistentProps ds cps kvs ws ∧ Spec.SupportedDims maxDim ds.length cps.dim kvs.isSome ∧
        (∀ l, kvs = some l → ∀ kv ∈ l, ∀ k ∈ kv, -1 ≤ k)) := by
  by_cases hk : ∀ l, kvs = some l → l.length = ds.length
  · by_cases hw : ∀ w, ws = some w → w.length = cps.rows.length
    · rw [construct_eq maxDim cls ds cps kvs ws hg hk hw _ rfl]
      have key := fun c => newCore_created_iff maxDim ds cps kvs ws c hk
      rcases hn : newCore maxDim ⟨some ds, kvs, some cps, ws⟩ with _ | _ | c
      · exfalso
        simp only [newCore] at hn
        repeat' split at hn
        all_goals cases hn
      · simp only [takeCore, if_true, Option.isSome_none, Bool.false_eq_true, false_iff]
        rintro ⟨h1, h2, h3⟩
        have := (key _).2 ⟨h1, h2, h3, rfl⟩
        rw [hn] at this; cases this
      · obtain ⟨h1, h2, h3, _⟩ := (key c).1 hn
        simp only [takeCore, Bool.false_eq_true, if_false, Option.isSome_some, true_iff]
        exact ⟨h1, h2, h3⟩
    · push Not at hw
      rw [construct_none maxDim cls ds cps kvs ws hg (Or.inr ⟨hk, hw⟩)]
      simp only [Option.isSome_none, Bool.false_eq_true, false_iff]
      rintro ⟨⟨_, _, _, h⟩, _⟩
      obtain ⟨w, h1, h2⟩ := hw
      exact h2 (h w h1)
  · push Not at hk
    rw [construct_none maxDim cls ds cps kvs ws hg (Or.inl hk)]
    simp only [Option.isSome_none, Bool.false_eq_true, false_iff]
    rintro ⟨⟨_, h, _⟩, _⟩
    obtain ⟨l, h1, h2⟩ := hk
    exact h2 (h l h1).1

/-- C20: a constructed spline is of the kind its properties ask for: rational iff weights were given, with knot vectors iff they were given, and reports the properties, the number of
parametric dimensions and the dimension of the points it was given. For the classes with a fixed set of required properties this is the kind of the class. -/
theorem construction_kind (maxDim : ℕ) (cls : Cls) (ds : List Int) (cps : Mat K) (kvs : Option (List (List K))) (ws : Option (List K))
    (hg : Given cls ⟨some ds, kvs, some cps, ws⟩) (s : State K) (hs : construct maxDim cls ⟨some ds, kvs, some cps, ws⟩ = some s) :
    ∃ c, s.core = some c ∧ c.degrees = ds ∧ c.cps = cps ∧ c.kvs = kvs ∧ c.ws = ws ∧
      (c.kind = .bezier ↔ kvs = none ∧ ws = none) ∧ (c.kind = .rationalBezier ↔ kvs = none ∧ ws ≠ none) ∧
      (c.kind = .bspline ↔ kvs ≠ none ∧ ws = none) ∧ (c.kind = .nurbs ↔ kvs ≠ none ∧ ws ≠ none) ∧
      (cls = .bezier → c.kind = .bezier) ∧ (cls = .rationalBezier → c.kind = .rationalBezier) ∧
      (cls = .bspline → c.kind = .bspline) ∧ (cls = .nurbs → c.kind = .nurbs) := by
  have hacc := (construction_accepts_partial maxDim cls ds cps kvs ws hg).1 (by rw [hs]; rfl)
  obtain ⟨h1, h2, h3⟩ := hacc
  have hk : ∀ l, kvs = some l → l.length = ds.length := fun l hl => (h1.2.1 l hl).1
  have hc := (newCore_created_iff maxDim ds cps kvs ws _ hk).2 ⟨h1, h2, h3, rfl⟩
  rw [construct_eq maxDim cls ds cps kvs ws hg hk h1.2.2.2 _ rfl, hc] at hs
  simp only [takeCore, Bool.false_eq_true, if_false, List.nil_append, List.length_nil, Option.some.injEq] at hs
  refine ⟨_, by rw [← hs]; rfl, rfl, rfl, rfl, rfl, ?_⟩
  obtain ⟨-, -, g3, g4, g5, g6⟩ := id hg
  simp only at g3 g4 g5 g6
  cases kvs <;> cases ws <;> cases cls <;> simp_all [dispatch, Cls.requiresKvs, Cls.requiresWs, Cls.takesKvs, Cls.takesWs]

/-- C19 fails: a clamped knot vector with a first knot below -1 is consistent but rejected -/
theorem knots_below_violates :
    Spec.ConsistentProps [1] (⟨2, [[0, 0], [1, 1]]⟩ : Mat ℚ) (some [[-2, -2, 2, 2]]) none ∧
      Spec.SupportedDims 3 1 2 true ∧
      construct 3 .bspline ⟨some [1], some [[-2, -2, 2, 2]], some (⟨2, [[0, 0], [1, 1]]⟩ : Mat ℚ), none⟩ = none := by
  refine ⟨⟨by simp, ?_, by simp, by simp⟩, by simp [Spec.SupportedDims], by decide +kernel⟩
  rintro l hl
  obtain rfl : [[-2, -2, 2, 2]] = l := by simpa using hl
  exact ⟨rfl, by simp, by simp⟩

/-- hypotheses of the theorems are met: a bilinear patch with one extra knot and weights -/
example : ((construct 3 .nurbs ⟨some [1, 1], some [[0, 0, 1, 1], [0, 0, 1/2, 1, 1]],
    some (⟨1, [[0], [1], [2], [3], [4], [5]]⟩ : Mat ℚ), some [1, 1, 2, 1, 1, 1]⟩).bind State.core).isSome = true := by decide +kernel

example : Given .nurbs (⟨some [1, 1], some [[0, 0, 1, 1], [0, 0, 1/2, 1, 1]], some ⟨1, [[0], [1], [2], [3], [4], [5]]⟩, some [1, 1, 2, 1, 1, 1]⟩ : Props ℚ) := by
  simp [Given, Cls.requiresKvs, Cls.requiresWs, Cls.takesKvs, Cls.takesWs]

end SplineCore
end Splinepy
