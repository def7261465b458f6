import Verif.Model.Mismatch
import Verif.Lemma.Threads
import Verif.Props.Threads
import Verif.Props.Multipatch

/-!
C17: consistency checks of multipatches, C18: adding fields is all-or-nothing, C59: rejected assignment of patches.
-/
set_option linter.unusedSectionVars false

namespace Splinepy.Mismatch
open Splinepy.Threads Splinepy.Spec Splinepy.Multipatch

/-- non-null splines have one degree and one control mesh resolution per parametric dimension -/
def Spec.WellFormed (p : Patch) : Prop := p.isNull = false → p.degrees.length = p.paraDim ∧ p.cmr.length = p.paraDim

/-! ### the per-thread bookkeeping -/

theorem flatten_filter {α : Type} (ts : List (List α)) (q : α → Bool) : (ts.map (fun t => t.filter q)).flatten = ts.flatten.filter q := by
  rw [List.filter_flatten]

theorem collect_spec (hw n nthreads : ℕ) (h1 : 1 ≤ nthreads) (h2 : 0 < n ∨ nthreads = 1) (checks : List (String × (ℕ → Bool))) :
    (collect hw n nthreads checks = some .ok ∧ ∀ c ∈ checks, ∀ i < n, c.2 i = false) ∨
    (∃ report, collect hw n nthreads checks = some (.raised report) ∧ (∃ c ∈ checks, ∃ i < n, c.2 i = true) ∧
      List.Forall₂ (fun c r => r.1 = c.1 ∧ r.2.Perm ((List.range n).filter c.2)) checks report) := by
  obtain ⟨ts, h3, h4⟩ := stridedThreads_perm hw n nthreads h1 h2
  unfold collect
  rw [if_neg (by omega), h3]
  simp only
  have hper : ∀ q : ℕ → Bool, ((ts.map (fun t => t.filter q)).flatten).Perm ((List.range n).filter q) := by
    intro q; rw [flatten_filter]; exact h4.filter q
  by_cases ha : (checks.map (fun c => (c.1, (ts.map (fun t => t.filter c.2)).flatten))).any (fun r => decide (r.2 ≠ [])) = true
  · right
    rw [if_pos ha]
    refine ⟨_, rfl, ?_, ?_⟩
    · obtain ⟨r, hr, hne⟩ := List.any_eq_true.1 ha
      obtain ⟨c, hc, rfl⟩ := List.mem_map.1 hr
      have hne := of_decide_eq_true hne
      simp only at hne
      obtain ⟨i, hi⟩ := List.exists_mem_of_ne_nil _ hne
      have := (hper c.2).mem_iff.1 hi
      rw [List.mem_filter, List.mem_range] at this
      exact ⟨c, hc, i, this.1, this.2⟩
    · clear ha
      induction checks with
      | nil => exact List.Forall₂.nil
      | cons c cs ih => exact List.Forall₂.cons ⟨rfl, hper c.2⟩ ih
  · left
    rw [if_neg ha]
    refine ⟨rfl, fun c hc i hi => ?_⟩
    by_contra hf
    apply ha
    refine List.any_eq_true.2 ⟨_, List.mem_map.2 ⟨c, hc, rfl⟩, decide_eq_true ?_⟩
    simp only
    intro he
    have := (hper c.2).mem_iff.2 (List.mem_filter.2 ⟨List.mem_range.2 hi, by simpa using hf⟩)
    rw [he] at this
    simp at this

theorem collect_ok_iff (hw n nthreads : ℕ) (h1 : 1 ≤ nthreads) (h2 : 0 < n ∨ nthreads = 1) (checks : List (String × (ℕ → Bool))) :
    collect hw n nthreads checks = some .ok ↔ ∀ c ∈ checks, ∀ i < n, c.2 i = false := by
  rcases collect_spec hw n nthreads h1 h2 checks with ⟨h, h'⟩ | ⟨r, h, ⟨c, hc, i, hi, ht⟩, _⟩
  · exact ⟨fun _ => h', fun _ => h⟩
  · constructor
    · intro h'; rw [h] at h'; simp at h'
    · intro h'; rw [h' c hc i hi] at ht; simp at ht

theorem collect_not_none (hw n nthreads : ℕ) (h1 : 1 ≤ nthreads) (h2 : 0 < n ∨ nthreads = 1) (checks : List (String × (ℕ → Bool))) :
    collect hw n nthreads checks ≠ none := by
  rcases collect_spec hw n nthreads h1 h2 checks with ⟨h, _⟩ | ⟨r, h, _⟩ <;> rw [h] <;> simp

/-! ### C17 -/

/-- the given reference values fit together: everything that is given has the same number of parametric dimensions; control mesh resolutions are never given
alone -/
def Spec.ConsistentArgs (paraDim : ℤ) (degrees cmr : List ℕ) : Prop :=
  (paraDim > 0 → degrees ≠ [] → degrees.length = paraDim) ∧ (paraDim > 0 → cmr ≠ [] → cmr.length = paraDim) ∧
  (degrees ≠ [] → cmr ≠ [] → cmr.length = degrees.length) ∧ (cmr ≠ [] → paraDim > 0 ∨ degrees ≠ [])

/-- the patch agrees with every reference value that is given -/
def Spec.Matches (name : String) (paraDim dim : ℤ) (degrees cmr : List ℕ) (p : Patch) : Prop :=
  (name ≠ "" → p.name = name) ∧ (paraDim > 0 → p.paraDim = paraDim) ∧ (dim > 0 → p.dim = dim) ∧
  (degrees ≠ [] → p.degrees = degrees) ∧ (cmr ≠ [] → p.cmr = cmr)

theorem mem_ite_singleton {α : Type} {b : Bool} {x y : α} : x ∈ (if b then [y] else []) ↔ b = true ∧ x = y := by
  cases b <;> simp

/-- C17: for every list of patches, every combination of reference values, every number of threads: the check passes if and only if every patch (null splines
aside) agrees with all given reference values. The right hand side does not depend on the number of threads. -/
theorem raise_mismatch_exact (hw : ℕ) (splist : List Patch) (name : String) (paraDim dim : ℤ) (degrees cmr : List ℕ) (nthreads : ℕ)
    (h1 : 1 ≤ nthreads) (h2 : 0 < splist.length ∨ nthreads = 1) (hc : Spec.ConsistentArgs paraDim degrees cmr)
    (hwf : ∀ p ∈ splist, Spec.WellFormed p) :
    raiseMismatch hw splist name paraDim dim degrees cmr nthreads = some .ok ↔
      ∀ p ∈ splist, p.isNull = false → Spec.Matches name paraDim dim degrees cmr p := by
  obtain ⟨c1, c2, c3, c4⟩ := hc
  have hdl : degrees.length > 0 ↔ degrees ≠ [] := by rw [gt_iff_lt, List.length_pos_iff]
  have hcl : cmr.length > 0 ↔ cmr ≠ [] := by rw [gt_iff_lt, List.length_pos_iff]
  set ref : ℤ := if decide (degrees.length > 0) = true then (degrees.length : ℤ) else paraDim with href
  have hsane : ¬ ((decide (paraDim > 0) || decide (degrees.length > 0) || decide (cmr.length > 0)) &&
      [paraDim, (degrees.length : ℤ), (cmr.length : ℤ)].any (fun c => decide (c ≠ ref ∧ c > 0))) = true := by
    intro h
    rw [Bool.and_eq_true] at h
    obtain ⟨x, hx, hx2⟩ := List.any_eq_true.1 h.2
    obtain ⟨hx2, hx3⟩ := of_decide_eq_true hx2
    apply hx2
    rw [href]
    by_cases hd : degrees ≠ []
    · rw [if_pos (decide_eq_true (hdl.2 hd))]
      simp only [List.mem_cons, List.not_mem_nil, or_false] at hx
      rcases hx with rfl | rfl | rfl
      · exact (c1 hx3 hd).symm
      · rfl
      · have := c3 hd (hcl.1 (by omega)); omega
    · have hd0 : ¬ degrees.length > 0 := fun h => hd (hdl.1 h)
      rw [if_neg (by simpa using hd0)]
      simp only [List.mem_cons, List.not_mem_nil, or_false] at hx
      rcases hx with rfl | rfl | rfl
      · rfl
      · omega
      · have h3 := hcl.1 (by omega)
        rcases c4 h3 with h4 | h4
        · exact c2 h4 h3
        · exact absurd h4 hd
  unfold raiseMismatch
  simp only
  rw [if_neg hsane, collect_ok_iff hw splist.length nthreads h1 h2]
  constructor
  · intro h p hp hnull
    obtain ⟨i, hi, rfl⟩ := List.getElem_of_mem hp
    have hgd : splist.getD i default = splist[i] := List.getD_eq_getElem _ _ hi
    have hw' := hwf _ hp hnull
    have hpd : paraDim > 0 ∨ degrees ≠ [] ∨ cmr ≠ [] → ref = (splist[i].paraDim : ℤ) := by
      intro hany
      have := h ("para_dim", _) (by
        rw [List.mem_append]; right
        rw [mem_ite_singleton]
        refine ⟨?_, rfl⟩
        rcases hany with h | h | h
        · simp [h]
        · simp [hdl.2 h]
        · simp [hcl.2 h]) i hi
      simp only [hgd, hnull, Bool.not_false, Bool.true_and, decide_eq_false_iff_not, not_not] at this
      exact this
    refine ⟨fun hn => ?_, fun hpos => ?_, fun hpos => ?_, fun hd => ?_, fun hcm => ?_⟩
    · have := h ("name", _) (by
        simp only [List.mem_append]; left; left; left; left
        rw [mem_ite_singleton]; exact ⟨decide_eq_true hn, rfl⟩) i hi
      simp only [hgd, hnull, Bool.not_false, Bool.true_and, decide_eq_false_iff_not, not_not] at this
      exact this.symm
    · rw [← hpd (Or.inl hpos), href]
      by_cases hd : degrees ≠ []
      · rw [if_pos (decide_eq_true (hdl.2 hd))]; exact c1 hpos hd
      · rw [if_neg (by simpa using fun h => hd (hdl.1 h))]
    · have := h ("dim", _) (by
        simp only [List.mem_append]; left; left; left; right
        rw [mem_ite_singleton]; exact ⟨decide_eq_true hpos, rfl⟩) i hi
      simp only [hgd, hnull, Bool.not_false, Bool.true_and, decide_eq_false_iff_not, not_not] at this
      exact this.symm
    · have := h ("degrees", _) (by
        simp only [List.mem_append]; left; left; right
        rw [mem_ite_singleton]; exact ⟨decide_eq_true (hdl.2 hd), rfl⟩) i hi
      rw [← href] at this
      simp only [hgd, hnull, hpd (Or.inr (Or.inl hd)), Bool.not_false, Bool.true_and, ne_eq, not_true_eq_false, decide_false, Bool.and_false,
        decide_eq_false_iff_not, not_not] at this
      exact this
    · have := h ("control_mesh_resolutions", _) (by
        simp only [List.mem_append]; left; right
        rw [mem_ite_singleton]; exact ⟨decide_eq_true (hcl.2 hcm), rfl⟩) i hi
      rw [← href] at this
      simp only [hgd, hnull, hpd (Or.inr (Or.inr hcm)), Bool.not_false, Bool.true_and, ne_eq, not_true_eq_false, decide_false, Bool.and_false,
        decide_eq_false_iff_not, not_not] at this
      exact this
  · intro h c hcm i hi
    have hgd : splist.getD i default = splist[i] := List.getD_eq_getElem _ _ hi
    have hp : splist[i] ∈ splist := List.getElem_mem hi
    cases hnull : splist[i].isNull with
    | true =>
      simp only [List.mem_append, mem_ite_singleton] at hcm
      rcases hcm with (((⟨_, rfl⟩ | ⟨_, rfl⟩) | ⟨_, rfl⟩) | ⟨_, rfl⟩) | ⟨_, rfl⟩ <;>
        simp only [hgd, hnull, Bool.not_true, Bool.false_and]
    | false =>
      obtain ⟨m1, m2, m3, m4, m5⟩ := h _ hp hnull
      simp only [List.mem_append, mem_ite_singleton] at hcm
      rcases hcm with (((⟨hb, rfl⟩ | ⟨hb, rfl⟩) | ⟨hb, rfl⟩) | ⟨hb, rfl⟩) | ⟨hb, rfl⟩
      · simp only [hgd, hnull, m1 (of_decide_eq_true hb)]; simp
      · have := m3 (of_decide_eq_true hb)
        simp only [hgd, hnull, this]; simp
      · simp only [hgd, hnull, m4 (hdl.1 (of_decide_eq_true hb))]; simp
      · simp only [hgd, hnull, m5 (hcl.1 (of_decide_eq_true hb))]; simp
      · have : ref = (splist[i].paraDim : ℤ) := by
          rw [href]
          by_cases hd : degrees ≠ []
          · rw [if_pos (decide_eq_true (hdl.2 hd)), ← m4 hd, (hwf _ hp hnull).1]
          · rw [if_neg (by simpa using fun h => hd (hdl.1 h))]
            by_cases hpos : paraDim > 0
            · exact (m2 hpos).symm
            · exfalso
              simp only [Bool.or_eq_true, decide_eq_true_eq] at hb
              rcases hb with (h | h) | h
              · exact hpos h
              · exact hd (hdl.1 h)
              · rcases c4 (hcl.1 h) with h4 | h4
                · exact hpos h4
                · exact hd h4
        rw [← href]
        simp only [hgd, this]; simp

/-- C17: a failing check reports, for every registered key, each offending index once, in some order. -/
theorem raise_mismatch_never_crashes (hw : ℕ) (splist : List Patch) (name : String) (paraDim dim : ℤ) (degrees cmr : List ℕ) (nthreads : ℕ)
    (h1 : 1 ≤ nthreads) (h2 : 0 < splist.length ∨ nthreads = 1) :
    raiseMismatch hw splist name paraDim dim degrees cmr nthreads ≠ none := by
  unfold raiseMismatch
  extract_lets
  generalize (_ && _ : Bool) = b
  cases b
  · simp only [Bool.false_eq_true, if_false]; exact collect_not_none hw _ nthreads h1 h2 _
  · simp

/-- non-vacuity: a surface and a curve; two threads find the curve -/
example : raiseMismatch 4 [⟨"BSpline", 2, 3, [1, 1], [2, 2], false⟩, ⟨"BSpline", 2, 3, [2, 1], [3, 2], false⟩, ⟨"Bezier", 1, 3, [2], [3], false⟩] "" 2 3 [] [] 2
    = some (.raised [("dim", []), ("para_dim", [2])]) := by decide +kernel

/-- the patches setter accepts a list iff all patches have the dimensions of the first one, for every number of threads -/
theorem set_patches_accepts_iff (hw : ℕ) (nthreads : ℕ) (h1 : 1 ≤ nthreads) (old : Multipatch) (p : Patch) (ps : List Patch)
    (hpos : 0 < p.paraDim ∧ 0 < p.dim) (hnull : ∀ q ∈ p :: ps, q.isNull = false) (hwf : ∀ q ∈ p :: ps, Spec.WellFormed q) :
    (setPatches hw nthreads old (p :: ps) = .returned ⟨p :: ps, []⟩ ↔ ∀ q ∈ ps, q.paraDim = p.paraDim ∧ q.dim = p.dim) ∧
    setPatches hw nthreads old (p :: ps) ≠ .crashed := by
  have hcon : Spec.ConsistentArgs (p.paraDim : ℤ) [] [] := by simp [Spec.ConsistentArgs]
  have hex := raise_mismatch_exact hw (p :: ps) "" p.paraDim p.dim [] [] nthreads h1 (Or.inl (by simp)) hcon hwf
  have hm : (∀ q ∈ p :: ps, q.isNull = false → Spec.Matches "" (p.paraDim : ℤ) p.dim [] [] q) ↔ ∀ q ∈ ps, q.paraDim = p.paraDim ∧ q.dim = p.dim := by
    constructor
    · intro h q hq
      obtain ⟨_, h2, h3, _⟩ := h q (by simp [hq]) (hnull q (by simp [hq]))
      exact ⟨by exact_mod_cast h2 (by omega), by exact_mod_cast h3 (by omega)⟩
    · intro h q hq _
      rcases List.mem_cons.1 hq with rfl | hq
      · simp [Spec.Matches]
      · obtain ⟨a, b⟩ := h q hq
        simp [Spec.Matches, a, b]
  rw [hm] at hex
  unfold setPatches
  simp only
  cases hr : raiseMismatch hw (p :: ps) "" (↑p.paraDim) (↑p.dim) [] [] (nthreads : ℤ) with
  | none => exact absurd hr (raise_mismatch_never_crashes hw _ _ _ _ _ _ nthreads h1 (Or.inl (by simp)))
  | some v =>
    cases v with
    | ok => exact ⟨⟨fun _ => hex.1 hr, fun _ => rfl⟩, by simp⟩
    | raised r =>
      refine ⟨⟨fun h => by simp at h, fun h => ?_⟩, by simp⟩
      rw [hex.2 h] at hr; simp at hr

/-- non-vacuity -/
example : setPatches 4 2 ⟨[], []⟩ [⟨"BSpline", 2, 3, [1, 1], [2, 2], false⟩, ⟨"Bezier", 2, 3, [2, 1], [3, 2], false⟩]
    = .returned ⟨[⟨"BSpline", 2, 3, [1, 1], [2, 2], false⟩, ⟨"Bezier", 2, 3, [2, 1], [3, 2], false⟩], []⟩ := by decide +kernel

/-- C59 fails: assigning a list of patches that do not fit together raises, but the multipatch holds the rejected patches afterwards, and its fields are gone. -/
theorem set_patches_not_atomic_violates :
    ∃ (old new : Multipatch) (ps : List Patch), setPatches 4 1 old ps = .raised new ∧ new.patches = ps ∧ new ≠ old ∧ new.fields = [] ∧ old.fields ≠ [] := by
  refine ⟨⟨[⟨"BSpline", 1, 2, [1], [2], false⟩], [[⟨"BSpline", 1, 2, [1], [2], false⟩]]⟩, ⟨[⟨"BSpline", 2, 3, [1, 1], [2, 2], false⟩, ⟨"Bezier", 1, 3, [2], [3], false⟩], []⟩, [⟨"BSpline", 2, 3, [1, 1], [2, 2], false⟩, ⟨"Bezier", 1, 3, [2], [3], false⟩],
    ?_⟩
  decide +kernel

/-- C59 holds for accepted lists: the multipatch has exactly the new patches. Missing: rejected lists, see above. -/
theorem set_patches_partial (hw : ℕ) (nthreads : ℤ) (old new : Multipatch) (ps : List Patch) (h : setPatches hw nthreads old ps = .returned new) :
    new.patches = ps ∧ new.fields = [] := by
  unfold setPatches at h
  simp only at h
  split at h
  · simp at h
  · split at h
    · simp at h
    · simp at h; subst h; exact ⟨rfl, rfl⟩
    · simp at h

/-! ### second overload -/

/-- entry `q` of a field fits to patch `p` as far as requested -/
def Spec.Fits (name dims : Bool) (fieldDim : ℤ) (degrees cmr : Bool) (p q : Patch) : Prop :=
  (dims → p.paraDim = q.paraDim ∧ (q.dim : ℤ) = fieldDim) ∧
  (p.isNull = false → q.isNull = false →
    (name → p.name = q.name) ∧ (degrees → p.degrees = q.degrees) ∧ (cmr → p.cmr = q.cmr))

/-- C17 for two lists: accepted iff the lists have the same length and the entries fit pairwise; for every number of threads. -/
theorem raise_mismatch2_exact (hw : ℕ) (l0 l1 : List Patch) (name dims : Bool) (fieldDim : ℤ) (degrees cmr : Bool) (nthreads : ℕ)
    (h1 : 1 ≤ nthreads) (h2 : 0 < l0.length ∨ nthreads = 1) :
    raiseMismatch2 hw l0 l1 name dims fieldDim degrees cmr nthreads = some .ok ↔
      l0.length = l1.length ∧ ∀ i < l0.length, Spec.Fits name dims fieldDim degrees cmr (l0.getD i default) (l1.getD i default) := by
  unfold raiseMismatch2
  by_cases hl : l0.length = l1.length
  · rw [if_neg (by simpa using hl)]
    simp only
    rw [collect_ok_iff hw l0.length nthreads h1 h2]
    constructor
    · intro h
      refine ⟨hl, fun i hi => ⟨fun hd => ⟨?_, ?_⟩, fun hp hq => ⟨fun hn => ?_, fun hn => ?_, fun hn => ?_⟩⟩⟩
      · have := h ("para_dim", _) (by
          simp only [List.mem_append]; right
          rw [mem_ite_singleton]; exact ⟨by simp [hd], rfl⟩) i hi
        simpa [hd] using this
      · have := h ("dim", _) (by
          simp only [List.mem_append]; left; left; left; right
          rw [mem_ite_singleton]; exact ⟨hd, rfl⟩) i hi
        simp only [decide_eq_false_iff_not, ne_eq, not_not] at this
        exact this.symm
      · have := h ("name", _) (by
          simp only [List.mem_append]; left; left; left; left
          rw [mem_ite_singleton]; exact ⟨hn, rfl⟩) i hi
        simp only [hp, hq, Bool.or_false, Bool.not_false, Bool.true_and, decide_eq_false_iff_not, not_not] at this
        exact this
      · have hpd : dims = true → (l0.getD i default).paraDim = (l1.getD i default).paraDim := by
          intro hd
          have := h ("para_dim", _) (by
            simp only [List.mem_append]; right
            rw [mem_ite_singleton]; exact ⟨by simp [hd], rfl⟩) i hi
          simpa [hd] using this
        have := h ("degrees", _) (by
          simp only [List.mem_append]; left; left; right
          rw [mem_ite_singleton]; exact ⟨hn, rfl⟩) i hi
        cases hd : dims with
        | true => simp only [hp, hq, hd, hpd hd, Bool.or_false, Bool.not_false, Bool.true_and, ne_eq, not_true_eq_false, decide_false, decide_eq_false_iff_not, not_not] at this; exact this
        | false => simp only [hp, hq, hd, Bool.or_false, Bool.not_false, Bool.true_and, Bool.false_and, decide_eq_false_iff_not, ne_eq, not_not] at this; exact this
      · have hpd : dims = true → (l0.getD i default).paraDim = (l1.getD i default).paraDim := by
          intro hd
          have := h ("para_dim", _) (by
            simp only [List.mem_append]; right
            rw [mem_ite_singleton]; exact ⟨by simp [hd], rfl⟩) i hi
          simpa [hd] using this
        have := h ("control_mesh_resolutions", _) (by
          simp only [List.mem_append]; left; right
          rw [mem_ite_singleton]; exact ⟨hn, rfl⟩) i hi
        cases hd : dims with
        | true => simp only [hp, hq, hd, hpd hd, Bool.or_false, Bool.not_false, Bool.true_and, ne_eq, not_true_eq_false, decide_false, decide_eq_false_iff_not, not_not] at this; exact this
        | false => simp only [hp, hq, hd, Bool.or_false, Bool.not_false, Bool.true_and, Bool.false_and, decide_eq_false_iff_not, ne_eq, not_not] at this; exact this
    · rintro ⟨_, h⟩ c hcm i hi
      obtain ⟨f1, f2⟩ := h i hi
      simp only [List.mem_append, mem_ite_singleton] at hcm
      rcases hcm with (((⟨hb, rfl⟩ | ⟨hb, rfl⟩) | ⟨hb, rfl⟩) | ⟨hb, rfl⟩) | ⟨hb, rfl⟩
      · simp only
        cases hp : (l0.getD i default).isNull <;> cases hq : (l1.getD i default).isNull <;> simp
        simpa using (f2 hp hq).1 hb
      · simp only [decide_eq_false_iff_not, ne_eq, not_not]; exact (f1 hb).2.symm
      · simp only
        cases hp : (l0.getD i default).isNull <;> cases hq : (l1.getD i default).isNull <;> simp
        intro _; simpa using (f2 hp hq).2.1 hb
      · simp only
        cases hp : (l0.getD i default).isNull <;> cases hq : (l1.getD i default).isNull <;> simp
        intro _; simpa using (f2 hp hq).2.2 hb
      · simp only
        cases hd : dims with
        | true => simpa using (f1 hd).1
        | false => simp
  · rw [if_pos (by simpa using hl)]
    simp [hl]

/-- non-vacuity: a field entry with another degree is found -/
example : raiseMismatch2 4 [⟨"BSpline", 1, 3, [1], [2], false⟩, ⟨"BSpline", 1, 3, [1], [2], false⟩] [⟨"BSpline", 1, 2, [1], [2], false⟩, ⟨"BSpline", 1, 2, [2], [3], false⟩]
    true true 2 true false 2 = some (.raised [("name", []), ("dim", []), ("degrees", [1]), ("para_dim", [])]) := by decide +kernel

/-! ### C18 -/

/-- the entries of a field as splines: `None` stands for the null spline of the dimensions of the multipatch and the field -/
def Spec.fieldPatches (paraDim : ℕ) (fieldDim : ℤ) (entries : List FieldEntry) : List Patch :=
  entries.map (fun e => e.getD ⟨"NullSpline", paraDim, fieldDim.toNat, [], [], true⟩)

theorem makeField_some {maxDim paraDim : ℕ} {fieldDim : ℤ} {entries : List FieldEntry} {l : List Patch}
    (h : makeField maxDim paraDim fieldDim entries = some (some l)) : l = Spec.fieldPatches paraDim fieldDim entries := by
  unfold makeField at h
  split at h
  · simp at h
  · unfold checkField at h
    split at h
    · simp at h
    · split at h
      · simp at h
      · simp only [Option.some.injEq] at h; rw [← h]; rfl
      · simp at h

/-- the number of threads that are started lists every index once, if no index is beyond the list -/
theorem chunks_in_range {hw n : ℕ} {nthreads : ℤ} {ts : List (List ℕ)} (hc : chunkThreads hw n nthreads = some ts)
    (hin : ∀ i ∈ ts.flatten, i < n) : ts.flatten = List.range n := by
  by_cases h1 : effective hw nthreads ≤ 1
  · rw [single_thread_eq_range hw _ nthreads h1] at hc
    simp at hc; subst hc; simp
  · by_cases h0 : 0 < n
    · obtain ⟨ts', h2, _, h4⟩ := chunks_eq_range hw n nthreads _ rfl (by omega) h0
      rw [hc] at h2
      simp at h2
      subst h2
      rw [h4] at hin ⊢
      congr 1
      apply le_antisymm
      · by_contra h5
        exact absurd (hin _ (List.mem_range.2 (Nat.lt_of_not_le h5))) (lt_irrefl _)
      · exact Nat.le_max_left _ _
    · have : n = 0 := by omega
      rw [this, empty_queries_violates hw nthreads (by omega)] at hc
      simp at hc

theorem range_map_getElem {α β : Type} (l : List α) (g : ℕ → β) (f : α → β) (h : ∀ i (hi : i < l.length), g i = f l[i]) :
    (List.range l.length).map g = l.map f := by
  apply List.ext_getElem
  · simp
  · intro i h1 h2
    simp only [List.getElem_map, List.getElem_range]
    exact h i (by simpa using h1)

/-- C18: for every multipatch, every list of fields (consistent or not), every set of checks and every number of threads: if `add_fields` returns, then all given
fields have been appended, in order; if it raises, then nothing has changed. -/
theorem add_fields_all_or_nothing (hw maxDim : ℕ) (m : Multipatch) (fields : List (List FieldEntry)) (fieldDim : ℤ)
    (checkName checkDims checkDegrees checkCmr : Bool) (nthreads : ℤ) :
    (∀ m', addFields hw maxDim m fields fieldDim checkName checkDims checkDegrees checkCmr nthreads = .returned m' →
      m'.patches = m.patches ∧
      m'.fields = m.fields ++ fields.map (Spec.fieldPatches ((m.patches.head?.map Patch.paraDim).getD 0) fieldDim)) ∧
    (∀ m', addFields hw maxDim m fields fieldDim checkName checkDims checkDegrees checkCmr nthreads = .raised m' → m' = m) := by
  unfold addFields
  cases hp : m.patches with
  | nil => simp
  | cons p0 ps =>
    simp only
    cases hc : chunkThreads hw fields.length nthreads with
    | none => simp
    | some ts =>
      simp only
      cases hm : ts.flatten.mapM (fun i => (fields[i]?).bind (makeField maxDim p0.paraDim fieldDim)) with
      | none => simp
      | some converted =>
        simp only
        cases hl : converted.mapM id with
        | none =>
          simp only
          generalize (if nthreads < 0 then (hw : ℤ) else nthreads) = e
          split <;> simp
        | some lists =>
          simp only
          cases hv : lists.mapM (fun l => raiseMismatch2 0 (p0 :: ps) l checkName checkDims fieldDim checkDegrees checkCmr 1) with
          | none => simp
          | some verdicts =>
            simp only
            split
            · simp
            · refine ⟨?_, by simp⟩
              intro m' h
              simp only [Outcome.returned.injEq] at h
              subst h
              refine ⟨rfl, ?_⟩
              simp only [List.head?_cons, Option.map_some, Option.getD_some]
              congr 1
              obtain ⟨a1, a2, a3⟩ := mapM_some_eq _ _ _ hm
              obtain ⟨b1, b2, b3⟩ := mapM_some_eq _ _ _ hl
              have hin : ∀ i ∈ ts.flatten, i < fields.length := by
                intro i hi
                by_contra h3
                have := a1 i hi
                rw [List.getElem?_eq_none (by omega)] at this
                simp at this
              rw [b3 [], a3 none, List.map_map]
              have htf := chunks_in_range hc hin
              rw [htf]
              apply range_map_getElem
              intro i hi
              have hmem : ((fields[i]?).bind (makeField maxDim p0.paraDim fieldDim)).getD none ∈ converted := by
                rw [a3 none]
                exact List.mem_map.2 ⟨i, by rw [htf]; exact List.mem_range.2 hi, rfl⟩
              have h5 := b1 _ hmem
              have h6 := a1 i (by rw [htf]; exact List.mem_range.2 hi)
              simp only [Function.comp]
              rw [List.getElem?_eq_getElem hi] at h5 h6 ⊢
              simp only [Option.bind_some] at h5 h6 ⊢
              cases h7 : makeField maxDim p0.paraDim fieldDim fields[i] with
              | none => rw [h7] at h6; simp at h6
              | some o =>
                rw [h7] at h5
                cases o with
                | none => simp at h5
                | some l => simp only [Option.getD_some, id]; exact makeField_some h7

/-- what makes a field acceptable: as many entries as patches, all entries of the dimensions of the first one, and every entry fits to its patch as far as requested -/
def Spec.Acceptable (patches : List Patch) (fieldDim : ℤ) (name dims degrees cmr : Bool) (entries : List FieldEntry) : Prop :=
  let l := Spec.fieldPatches ((patches.head?.map Patch.paraDim).getD 0) fieldDim entries
  (∀ q ∈ l, q.isNull = false → q.paraDim = (l.headD default).paraDim ∧ q.dim = (l.headD default).dim) ∧
  patches.length = l.length ∧ ∀ i < patches.length, Spec.Fits name dims fieldDim degrees cmr (patches.getD i default) (l.getD i default)

/-- entries the library can represent: not empty, splines with positive dimensions, `None` only for dimensions with a prepared null spline -/
def Spec.Representable (maxDim paraDim : ℕ) (fieldDim : ℤ) (entries : List FieldEntry) : Prop :=
  entries ≠ [] ∧ (none ∈ entries → 1 ≤ paraDim ∧ paraDim ≤ maxDim ∧ 1 ≤ fieldDim ∧ fieldDim ≤ maxDim) ∧
  ∀ p, some p ∈ entries → p.isNull = false ∧ 0 < p.paraDim ∧ 0 < p.dim ∧ p.degrees.length = p.paraDim ∧ p.cmr.length = p.paraDim

theorem makeField_spec {maxDim paraDim : ℕ} {fieldDim : ℤ} {entries : List FieldEntry} (hr : Spec.Representable maxDim paraDim fieldDim entries) :
    let l := Spec.fieldPatches paraDim fieldDim entries
    makeField maxDim paraDim fieldDim entries ≠ none ∧
    (makeField maxDim paraDim fieldDim entries = some (some l) ↔
      ∀ q ∈ l, q.isNull = false → q.paraDim = (l.headD default).paraDim ∧ q.dim = (l.headD default).dim) := by
  obtain ⟨r1, r2, r3⟩ := hr
  intro l
  unfold makeField
  have hcond : ¬ (entries.any (fun e => e.isNone) && !(decide (1 ≤ paraDim ∧ paraDim ≤ maxDim ∧ 1 ≤ fieldDim ∧ fieldDim ≤ maxDim))) = true := by
    intro h
    rw [Bool.and_eq_true, List.any_eq_true] at h
    obtain ⟨⟨e, he, hn⟩, h2⟩ := h
    cases e with
    | some _ => simp at hn
    | none => have := r2 he; simp at h2; omega
  rw [if_neg hcond]
  change checkField l ≠ none ∧ (checkField l = _ ↔ _)
  unfold checkField
  have hl : ∀ q ∈ l, 0 < q.paraDim ∧ 0 < q.dim ∧ Spec.WellFormed q := by
    intro q hq
    obtain ⟨e, he, rfl⟩ := List.mem_map.1 hq
    cases e with
    | none =>
      have := r2 he
      refine ⟨by simp; omega, by simp; omega, by simp [Spec.WellFormed]⟩
    | some p =>
      obtain ⟨_, a, b, c, d⟩ := r3 p he
      exact ⟨a, b, fun _ => ⟨c, d⟩⟩
  have hne : l ≠ [] := by intro h; exact r1 (List.map_eq_nil_iff.1 h)
  clear_value l
  cases l with
  | nil => exact absurd rfl hne
  | cons p ps =>
    simp only [List.headD_cons]
    obtain ⟨q1, q2, _⟩ := hl p (by simp)
    have hcon : Spec.ConsistentArgs (p.paraDim : ℤ) [] [] := by simp [Spec.ConsistentArgs]
    have hex := raise_mismatch_exact 0 (p :: ps) "" p.paraDim p.dim [] [] 1 (le_refl _) (Or.inr rfl) hcon (fun q hq => (hl q hq).2.2)
    have hm : (∀ q ∈ p :: ps, q.isNull = false → Spec.Matches "" (p.paraDim : ℤ) p.dim [] [] q) ↔
        ∀ q ∈ p :: ps, q.isNull = false → q.paraDim = p.paraDim ∧ q.dim = p.dim := by
      constructor
      · intro h q hq hn
        obtain ⟨_, h2, h3, _⟩ := h q hq hn
        exact ⟨by exact_mod_cast h2 (by omega), by exact_mod_cast h3 (by omega)⟩
      · intro h q hq hn
        obtain ⟨a, b⟩ := h q hq hn
        simp [Spec.Matches, a, b]
    rw [hm] at hex
    cases hr : raiseMismatch 0 (p :: ps) "" (↑p.paraDim) (↑p.dim) [] [] 1 with
    | none => exact absurd hr (by exact_mod_cast raise_mismatch_never_crashes 0 _ _ _ _ _ _ 1 (le_refl _) (Or.inr rfl))
    | some v =>
      cases v with
      | ok => exact ⟨by simp, ⟨fun _ => hex.1 hr, fun _ => rfl⟩⟩
      | raised r =>
        refine ⟨by simp, ⟨fun h => by simp at h, fun h => ?_⟩⟩
        have := hex.2 h
        rw [Nat.cast_one, hr] at this; simp at this

theorem collect2_ne_none (l0 l1 : List Patch) (name dims : Bool) (fieldDim : ℤ) (degrees cmr : Bool) :
    raiseMismatch2 0 l0 l1 name dims fieldDim degrees cmr 1 ≠ none := by
  unfold raiseMismatch2
  split
  · simp
  · exact collect_not_none 0 _ 1 (le_refl _) (Or.inr rfl) _

/-- C18, when it is accepted: if every field can be represented and no thread leaves the list (see C09), then `add_fields` returns if and only if every field is
acceptable; otherwise it raises, or (only with two or more threads) the process ends. -/
theorem add_fields_accepts_iff (hw maxDim : ℕ) (m : Multipatch) (fields : List (List FieldEntry)) (fieldDim : ℤ)
    (checkName checkDims checkDegrees checkCmr : Bool) (nthreads : ℤ) (p0 : Patch) (ps : List Patch) (hp : m.patches = p0 :: ps)
    (hrep : ∀ f ∈ fields, Spec.Representable maxDim p0.paraDim fieldDim f)
    (hts : ∃ ts, chunkThreads hw fields.length nthreads = some ts ∧ ts.flatten = List.range fields.length) :
    (∃ m', addFields hw maxDim m fields fieldDim checkName checkDims checkDegrees checkCmr nthreads = .returned m') ↔
      ∀ f ∈ fields, Spec.Acceptable m.patches fieldDim checkName checkDims checkDegrees checkCmr f := by
  obtain ⟨ts, hc, htf⟩ := hts
  unfold addFields
  simp only [hp, hc, htf]
  have hconv : (List.range fields.length).mapM (fun i => (fields[i]?).bind (makeField maxDim p0.paraDim fieldDim))
      = some (fields.map (fun f => (makeField maxDim p0.paraDim fieldDim f).getD none)) := by
    rw [← range_map_getElem fields (fun i => ((fields[i]?).bind (makeField maxDim p0.paraDim fieldDim)).getD none)
      (fun f => (makeField maxDim p0.paraDim fieldDim f).getD none) (by
        intro i hi; simp only [List.getElem?_eq_getElem hi, Option.bind_some])]
    apply mapM_eq_some_map
    intro i hi
    have hi := List.mem_range.1 hi
    have h1 := (makeField_spec (hrep _ (List.getElem_mem hi))).1
    rw [List.getElem?_eq_getElem hi, Option.bind_some]
    cases h2 : makeField maxDim p0.paraDim fieldDim fields[i] with
    | none => exact absurd h2 h1
    | some o => rfl
  rw [hconv]
  simp only
  by_cases hu : ∀ f ∈ fields, makeField maxDim p0.paraDim fieldDim f = some (some (Spec.fieldPatches p0.paraDim fieldDim f))
  · have hl : (fields.map (fun f => (makeField maxDim p0.paraDim fieldDim f).getD none)).mapM id
        = some (fields.map (Spec.fieldPatches p0.paraDim fieldDim)) := by
      rw [List.mapM_map]
      apply mapM_eq_some_map
      intro f hf
      simp only [Function.comp, id]
      rw [hu f hf]; rfl
    rw [hl]
    simp only
    have hv : (fields.map (Spec.fieldPatches p0.paraDim fieldDim)).mapM (fun l => raiseMismatch2 0 (p0 :: ps) l checkName checkDims fieldDim checkDegrees checkCmr 1)
        = some (fields.map (fun f => (raiseMismatch2 0 (p0 :: ps) (Spec.fieldPatches p0.paraDim fieldDim f) checkName checkDims fieldDim checkDegrees checkCmr 1).getD .ok)) := by
      rw [List.mapM_map]
      apply mapM_eq_some_map
      intro f _
      simp only [Function.comp]
      cases h2 : raiseMismatch2 0 (p0 :: ps) (Spec.fieldPatches p0.paraDim fieldDim f) checkName checkDims fieldDim checkDegrees checkCmr 1 with
      | none => exact absurd h2 (collect2_ne_none _ _ _ _ _ _ _)
      | some v => rfl
    rw [hv]
    simp only
    have hfit : ∀ f ∈ fields, (Spec.Acceptable (p0 :: ps) fieldDim checkName checkDims checkDegrees checkCmr f ↔
        raiseMismatch2 0 (p0 :: ps) (Spec.fieldPatches p0.paraDim fieldDim f) checkName checkDims fieldDim checkDegrees checkCmr 1 = some .ok) := by
      intro f hf
      have h2 := raise_mismatch2_exact 0 (p0 :: ps) (Spec.fieldPatches p0.paraDim fieldDim f) checkName checkDims fieldDim checkDegrees checkCmr 1 (le_refl _) (Or.inr rfl)
      rw [Nat.cast_one] at h2
      rw [h2]
      unfold Spec.Acceptable
      simp only [List.head?_cons, Option.map_some, Option.getD_some]
      exact ⟨fun h => h.2, fun h => ⟨((makeField_spec (hrep f hf)).2.1 (hu f hf)), h⟩⟩
    constructor
    · rintro ⟨m', h⟩ f hf
      split at h
      · simp at h
      · rename_i hany
        rw [hfit f hf]
        by_contra hne
        apply hany
        refine List.any_eq_true.2 ⟨_, List.mem_map.2 ⟨f, hf, rfl⟩, decide_eq_true ?_⟩
        intro h3
        cases h2 : raiseMismatch2 0 (p0 :: ps) (Spec.fieldPatches p0.paraDim fieldDim f) checkName checkDims fieldDim checkDegrees checkCmr 1 with
        | none => exact absurd h2 (collect2_ne_none _ _ _ _ _ _ _)
        | some v => rw [h2] at h3 hne; simp only [Option.getD_some] at h3; exact hne (by rw [h3])
    · intro h
      rw [if_neg]
      · exact ⟨_, rfl⟩
      · intro hany
        obtain ⟨v, hv, hne⟩ := List.any_eq_true.1 hany
        obtain ⟨f, hf, rfl⟩ := List.mem_map.1 hv
        rw [(hfit f hf).1 (h f hf)] at hne
        simp at hne
  · have hl : (fields.map (fun f => (makeField maxDim p0.paraDim fieldDim f).getD none)).mapM id = none := by
      push Not at hu
      obtain ⟨f, hf, hne⟩ := hu
      cases hm : (fields.map (fun f => (makeField maxDim p0.paraDim fieldDim f).getD none)).mapM id with
      | none => rfl
      | some r =>
        exfalso
        have := (mapM_some_eq _ _ _ hm).1 _ (List.mem_map.2 ⟨f, hf, rfl⟩)
        cases h2 : makeField maxDim p0.paraDim fieldDim f with
        | none => exact absurd h2 (makeField_spec (hrep f hf)).1
        | some o =>
          rw [h2] at this hne
          cases o with
          | none => simp at this
          | some l => exact hne (by rw [makeField_some h2])
    rw [hl]
    simp only
    constructor
    · rintro ⟨m', h⟩
      generalize (if nthreads < 0 then (hw : ℤ) else nthreads) = e at h
      split at h <;> simp at h
    · intro h
      exfalso
      apply hu
      intro f hf
      rw [(makeField_spec (hrep f hf)).2]
      have := (h f hf).1
      simpa [Spec.Acceptable] using this

/-- non-vacuity: two patches, one field with a `None`, one thread -/
example : addFields 4 3 ⟨[⟨"BSpline", 1, 3, [1], [2], false⟩, ⟨"BSpline", 1, 3, [2], [3], false⟩], []⟩
    [[some ⟨"BSpline", 1, 2, [1], [2], false⟩, none]] 2 true true true true 1
    = .returned ⟨[⟨"BSpline", 1, 3, [1], [2], false⟩, ⟨"BSpline", 1, 3, [2], [3], false⟩], [[⟨"BSpline", 1, 2, [1], [2], false⟩, ⟨"NullSpline", 1, 2, [], [], true⟩]]⟩ := by
  decide +kernel

/-- a rejected field: nothing is added, also not the acceptable field before it -/
example : addFields 4 3 ⟨[⟨"BSpline", 1, 3, [1], [2], false⟩], []⟩
    [[some ⟨"BSpline", 1, 2, [1], [2], false⟩], [some ⟨"BSpline", 1, 2, [2], [3], false⟩]] 2 true true true true 1
    = .raised ⟨[⟨"BSpline", 1, 3, [1], [2], false⟩], []⟩ := by
  decide +kernel

/-- C18 fails for some numbers of threads: five acceptable fields, four threads, and the process ends. -/
theorem add_fields_threads_violates :
    let p : Patch := ⟨"BSpline", 1, 3, [1], [2], false⟩
    addFields 8 3 ⟨[p], []⟩ (List.replicate 5 [some p]) 3 true true true true 4 = .crashed ∧
    (∃ m', addFields 8 3 ⟨[p], []⟩ (List.replicate 5 [some p]) 3 true true true true 1 = .returned m') := by
  refine ⟨by decide +kernel, ⟨⟨[⟨"BSpline", 1, 3, [1], [2], false⟩], List.replicate 5 [⟨"BSpline", 1, 3, [1], [2], false⟩]⟩, by decide +kernel⟩⟩

/-- C18 fails for `None` entries in a library that is compiled for up to ten dimensions: it has null splines for three dimensions only. -/
theorem add_fields_null_violates :
    let p : Patch := ⟨"BSpline", 1, 3, [1], [2], false⟩
    addFields 8 3 ⟨[p], []⟩ [[none]] 4 true true true true 1 = .crashed := by decide +kernel

end Splinepy.Mismatch
