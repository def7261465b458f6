import Verif.Model.BezierSpline
import Verif.Props.BezierExtraction
import Verif.Props.ExtractSpline
import Verif.Lemma.Mirror
import Verif.Lemma.InsertSpline
import Mathlib.Data.List.Dedup

/-!
C111: `extract.beziers` returns the knot spans of a spline as Bezier patches with the points of the spline.
-/
set_option linter.unusedSectionVars false
namespace Splinepy.BezierSpline
open Splinepy.Spec Splinepy.KnotInsertion Finset
open Splinepy.Index (Spline)
open Splinepy.ExtractSpline (Spec.Inserted)

variable {K : Type} [Field K] [LinearOrder K] [IsStrictOrderedRing K]

/-! ### one direction -/

/-- the knots around the span number `c` -/
theorem span_knots {d : Dim K} (hm : ∀ g ∈ d.inner, d.degree ≤ g.2) (c : ℕ) (hc : c + 1 < d.groups.length) :
    ∃ μ, d.degree ≤ μ ∧ BezierPatches.Spec.start d.mults d.degree c = μ - d.degree ∧
      (∀ i, μ + 1 ≤ i + d.degree → i ≤ μ → knotSeq d.knots i = d.uniqueKnots.getD c 0) ∧
      (∀ i, μ + 1 ≤ i → i ≤ μ + d.degree → knotSeq d.knots i = d.uniqueKnots.getD (c + 1) 0) ∧
      (1 ≤ d.degree ∨ d.inner.all (fun g => 1 ≤ g.2) → knotSeq d.knots μ = d.uniqueKnots.getD c 0 ∧ knotSeq d.knots (μ + 1) = d.uniqueKnots.getD (c + 1) 0) := by
  have hmall : ∀ g ∈ d.groups, d.degree ≤ g.2 := by
    intro g hg
    simp only [Dim.groups, List.cons_append, List.mem_cons, List.mem_append] at hg
    rcases hg with rfl | hg | hg
    · simp
    · exact hm g hg
    · rcases hg with rfl | hg
      · simp
      · simp at hg
  have hcl : c < d.groups.length := by omega
  have hsplit : d.groups = d.groups.take c ++ d.groups[c] :: d.groups[c + 1] :: d.groups.drop (c + 2) := by
    rw [← List.drop_eq_getElem_cons, ← List.drop_eq_getElem_cons, List.take_append_drop]
  have hu : d.uniqueKnots.getD c 0 = d.groups[c].1 := by
    unfold Dim.uniqueKnots
    rw [List.getD_eq_getElem?_getD, List.getElem?_map, List.getElem?_eq_getElem hcl]; rfl
  have hvv : d.uniqueKnots.getD (c + 1) 0 = d.groups[c + 1].1 := by
    unfold Dim.uniqueKnots
    rw [List.getD_eq_getElem?_getD, List.getElem?_map, List.getElem?_eq_getElem hc]; rfl
  rw [hu, hvv]
  have hmu := hmall _ (List.getElem_mem hcl)
  have hmv := hmall _ (List.getElem_mem hc)
  have hstart : (d.mults.take (c + 1)).sum = ((d.groups.take c).map (·.2)).sum + d.groups[c].2 := by
    unfold Dim.mults
    rw [← List.map_take, List.take_succ_eq_append_getElem hcl, List.map_append, List.sum_append]
    simp
  have hbig : d.degree + 1 ≤ ((d.groups.take c).map (·.2)).sum + d.groups[c].2 := by
    rw [← hstart]
    unfold Dim.mults
    rw [← List.map_take]
    simp [Dim.groups]
  generalize hS : ((d.groups.take c).map (·.2)).sum = S at *
  have hku : ∀ i, S ≤ i → i < S + d.groups[c].2 → knotSeq d.knots i = d.groups[c].1 := by
    intro i hi1 hi2
    unfold Dim.knots
    have := knotSeq_expand (d.groups.take c) (d.groups[c + 1] :: d.groups.drop (c + 2)) d.groups[c].1 d.groups[c].2 i (by omega) (by omega)
    rw [← show d.groups = d.groups.take c ++ (d.groups[c].1, d.groups[c].2) :: d.groups[c + 1] :: d.groups.drop (c + 2) from hsplit] at this
    exact this
  have hkv : ∀ i, S + d.groups[c].2 ≤ i → i < S + d.groups[c].2 + d.groups[c + 1].2 → knotSeq d.knots i = d.groups[c + 1].1 := by
    intro i hi1 hi2
    unfold Dim.knots
    have := knotSeq_expand (d.groups.take c ++ [d.groups[c]]) (d.groups.drop (c + 2)) d.groups[c + 1].1 d.groups[c + 1].2 i
      (by rw [List.map_append, List.sum_append, hS]; simp; omega) (by rw [List.map_append, List.sum_append, hS]; simp; omega)
    rw [List.append_assoc] at this
    rw [← show d.groups = d.groups.take c ++ ([d.groups[c]] ++ (d.groups[c + 1].1, d.groups[c + 1].2) :: d.groups.drop (c + 2)) from hsplit] at this
    exact this
  have hone : 1 ≤ d.degree ∨ d.inner.all (fun g => 1 ≤ g.2) → 1 ≤ d.groups[c].2 ∧ 1 ≤ d.groups[c + 1].2 := by
    rintro (h | h)
    · exact ⟨by omega, by omega⟩
    · have : ∀ g ∈ d.groups, 1 ≤ g.2 := by
        intro g hg
        simp only [Dim.groups, List.cons_append, List.mem_cons, List.mem_append, List.mem_nil_iff, or_false] at hg
        rcases hg with rfl | hg | rfl
        · simp
        · simpa using List.all_eq_true.1 h g hg
        · simp
      exact ⟨this _ (List.getElem_mem hcl), this _ (List.getElem_mem hc)⟩
  refine ⟨S + d.groups[c].2 - 1, by omega, ?_, fun i h1 h2 => hku i (by omega) (by omega), fun i h1 h2 => hkv i (by omega) (by omega), fun h => ?_⟩
  · unfold BezierPatches.Spec.start
    rw [hstart]
  · obtain ⟨h1, h2⟩ := hone h
    exact ⟨hku _ (by omega) (by omega), hkv _ (by omega) (by omega)⟩

/-- the first control point of the next span -/
theorem start_succ {d : Dim K} (c : ℕ) (hc : c + 1 < d.groups.length) :
    BezierPatches.Spec.start d.mults d.degree (c + 1) = BezierPatches.Spec.start d.mults d.degree c + d.mults.getD (c + 1) 0 := by
  have hml : d.mults.length = d.groups.length := by simp [Dim.mults]
  unfold BezierPatches.Spec.start
  have h1 : (d.mults.take (c + 1 + 1)).sum = (d.mults.take (c + 1)).sum + d.mults.getD (c + 1) 0 := by
    rw [List.take_succ_eq_append_getElem (by omega), List.sum_append, List.getD_eq_getElem _ _ (by omega)]
    simp
  have h2 : d.degree + 1 ≤ (d.mults.take (c + 1)).sum := by
    simp [Dim.mults, Dim.groups]
  omega

theorem unique_lt {tol : K} (ht : 0 < tol) {d : Dim K} (hv : d.Valid tol) {a b : ℕ} (hab : a < b) (hb : b < d.groups.length) :
    d.uniqueKnots.getD a 0 < d.uniqueKnots.getD b 0 := by
  have hul : d.uniqueKnots.length = d.groups.length := by simp [Dim.uniqueKnots]
  have := List.pairwise_iff_getElem.1 hv.gap a b (by simpa using by omega) (by simpa using hb) hab
  rw [List.getD_eq_getElem _ _ (by omega), List.getD_eq_getElem _ _ (by omega)]
  unfold Dim.uniqueKnots
  linarith

theorem unique_last (d : Dim K) : d.uniqueKnots.getD (d.groups.length - 1) 0 = d.last := by
  have : d.uniqueKnots = (d.first :: d.inner.map (·.1)) ++ [d.last] := by simp [Dim.uniqueKnots, Dim.groups]
  rw [List.getD_eq_getElem?_getD, this]
  simp [Dim.groups]

theorem bernstein_left (p q : ℕ) {a b : K} (hab : a ≠ b) : bernstein p q a b a = if q = 0 then 1 else 0 := by
  have : b - a ≠ 0 := sub_ne_zero.2 hab.symm
  unfold bernstein
  rcases Nat.eq_zero_or_pos q with rfl | hq
  · simp [div_self this]
  · rw [sub_self, zero_div, zero_pow (by omega), if_neg (by omega)]; simp

theorem bernstein_right (p q : ℕ) (hq : q ≤ p) {a b : K} (hab : a ≠ b) : bernstein p q a b b = if q = p then 1 else 0 := by
  have : b - a ≠ 0 := sub_ne_zero.2 hab.symm
  unfold bernstein
  by_cases h : q = p
  · subst h; simp [div_self this]
  · rw [sub_self, zero_div, zero_pow (by omega), if_neg h]; simp

/-- the basis of a direction on the closed domain -/
def basisD (d : Dim K) (x : K) (j : ℕ) : K := basisC (knotSeq d.knots) (d.knots.length - d.degree - 1) d.degree j x

/-- Parameter `x` belongs to the span number `c`: to the half-open span, or it is the right end of the span and the knot there is the end of the
domain or occurs at most degree times. -/
def OnSpan (d : Dim K) (c : ℕ) (x : K) : Prop :=
  d.uniqueKnots.getD c 0 ≤ x ∧ (x < d.uniqueKnots.getD (c + 1) 0 ∨
    (x = d.uniqueKnots.getD (c + 1) 0 ∧ (c + 2 = d.groups.length ∨ d.mults.getD (c + 1) 0 ≤ d.degree)))

theorem basis_on_span {tol : K} (ht : 0 < tol) {d : Dim K} (hv : d.Valid tol) (hm : ∀ g ∈ d.inner, d.degree ≤ g.2) (c : ℕ)
    (hc : c + 1 < d.groups.length) {x : K} (hx : OnSpan d c x) :
    (∀ j, (j < BezierPatches.Spec.start d.mults d.degree c ∨ BezierPatches.Spec.start d.mults d.degree c + (d.degree + 1) ≤ j) → basisD d x j = 0) ∧
    ∀ q ≤ d.degree, basisD d x (BezierPatches.Spec.start d.mults d.degree c + q) =
      bernstein d.degree q (d.uniqueKnots.getD c 0) (d.uniqueKnots.getD (c + 1) 0) x := by
  have hsort := knotSeq_monotone (kv := d.knots) (expand_sorted (gap_le ht hv.gap))
  have hend := d.end_knot
  have hlt := unique_lt ht hv (Nat.lt_succ_self c) hc
  have hlast : d.uniqueKnots.getD (c + 1) 0 ≤ d.last := by
    rw [← unique_last]
    rcases Nat.lt_or_ge (c + 1) (d.groups.length - 1) with h | h
    · exact (unique_lt ht hv h (by omega)).le
    · rw [show c + 1 = d.groups.length - 1 by omega]
  -- a parameter whose blossom index is the one of the span
  have key : ∀ c, c + 1 < d.groups.length → ∀ x, ((x ≠ d.last ∧ d.uniqueKnots.getD c 0 ≤ x ∧ x < d.uniqueKnots.getD (c + 1) 0) ∨
      (x = d.last ∧ d.uniqueKnots.getD c 0 < x ∧ x = d.uniqueKnots.getD (c + 1) 0)) →
      (∀ j, (j < BezierPatches.Spec.start d.mults d.degree c ∨ BezierPatches.Spec.start d.mults d.degree c + (d.degree + 1) ≤ j) → basisD d x j = 0) ∧
      ∀ q ≤ d.degree, basisD d x (BezierPatches.Spec.start d.mults d.degree c + q) =
        bernstein d.degree q (d.uniqueKnots.getD c 0) (d.uniqueKnots.getD (c + 1) 0) x := by
    intro c hc x hx
    obtain ⟨μ, h1, h2, h3, h4, h5⟩ := span_knots hm c hc
    obtain ⟨k1, k2⟩ := h5 (Or.inl hv.degree)
    have hb : ∀ j, basisD d x j = Blossom.bl (knotSeq d.knots) μ (fun _ => x) d.degree j := fun j =>
      Mirror.basisC_eq_bl hsort (by rw [hend, k1, k2]; exact hx) d.degree j
    constructor
    · intro j hj
      rw [hb]
      by_contra hne
      have := Blossom.supp_bl (knotSeq d.knots) μ (fun _ => x) d.degree j hne
      omega
    · intro q hq
      rw [hb, h2]
      exact Blossom.bl_bernstein h1 h3 h4 d.degree le_rfl q hq
  obtain ⟨h1, h2 | ⟨h2, h3⟩⟩ := hx
  · exact key c hc x (Or.inl ⟨(lt_of_lt_of_le h2 hlast).ne, h1, h2⟩)
  · by_cases he : c + 2 = d.groups.length
    · refine key c hc x (Or.inr ⟨?_, by rw [h2]; exact hlt, h2⟩)
      rw [h2, ← unique_last, show c + 1 = d.groups.length - 1 by omega]
    · have h3' := h3.resolve_left he
      have hmul : d.mults.getD (c + 1) 0 = d.degree := by
        refine le_antisymm h3' ?_
        unfold Dim.mults
        rw [List.getD_eq_getElem _ _ (by simpa using hc), List.getElem_map]
        have : d.groups[c + 1] ∈ d.inner := by
          have e : d.groups[c + 1] = (d.inner ++ [(d.last, d.degree + 1)])[c]'(by simp [Dim.groups] at hc ⊢; omega) := by
            simp [Dim.groups]
          rw [e, List.getElem_append_left (by simp [Dim.groups] at hc he; omega)]
          exact List.getElem_mem _
        exact hm _ this
      have hs := start_succ (d := d) c hc
      rw [hmul] at hs
      have hlt2 := unique_lt ht hv (Nat.lt_succ_self (c + 1)) (by omega)
      have hl2 : x < d.last := by
        rw [h2, ← unique_last]
        exact unique_lt ht hv (by omega) (by omega)
      obtain ⟨n1, n2⟩ := key (c + 1) (by omega) x (Or.inl ⟨hl2.ne, by rw [h2], by rw [h2]; exact hlt2⟩)
      rw [hs] at n1 n2
      have hval : ∀ q ≤ d.degree, basisD d x (BezierPatches.Spec.start d.mults d.degree c + d.degree + q) = if q = 0 then 1 else 0 := by
        intro q hq
        rw [n2 q hq, h2, bernstein_left _ _ hlt2.ne]
      constructor
      · intro j hj
        rcases Nat.lt_or_ge j (BezierPatches.Spec.start d.mults d.degree c + d.degree) with h | h
        · exact n1 j (Or.inl h)
        · obtain ⟨q, rfl⟩ := Nat.exists_eq_add_of_le h
          rcases Nat.lt_or_ge d.degree q with hq | hq
          · exact n1 _ (Or.inr (by omega))
          · rw [hval q hq, if_neg (by omega)]
      · intro q hq
        rw [h2, bernstein_right _ _ hq hlt.ne, ← h2]
        by_cases hqd : q = d.degree
        · subst hqd
          have := hval 0 (by omega)
          simpa using this
        · rw [if_neg hqd]
          exact n1 _ (Or.inl (by omega))

/-! ### all directions -/

/-- rows of the tensor product on a combination of spans -/
theorem tensor_on_spans {tol : K} (ht : 0 < tol) (es : List (Dim K)) (hv : ∀ d ∈ es, d.Valid tol) (hm : ∀ d ∈ es, ∀ g ∈ d.inner, d.degree ≤ g.2)
    (i : ℕ) (hi : i < (es.map fun d => d.groups.length - 1).prod) :
    ∃ ids, (BezierPatches.extractBezierPatchIDs (es.map (·.mults)) (es.map (·.degree)))[i]? = some ids ∧
      ids.length = (es.map fun d => d.degree + 1).prod ∧ (∀ j ∈ ids, j < (es.map (·.nCps)).prod) ∧
      ∀ xs : List K, List.Forall₂ (fun (dc : Dim K × ℕ) x => OnSpan dc.1 dc.2 x) (es.zip (digits (es.map fun d => d.groups.length - 1) i)) xs →
        ∀ coef : List K, tensorEval (List.zipWith (fun d x j => basisD d x j) es xs) (es.map (·.nCps)) coef =
          tensorEval (List.zipWith (fun (dc : Dim K × ℕ) x q => bernstein dc.1.degree q (dc.1.uniqueKnots.getD dc.2 0) (dc.1.uniqueKnots.getD (dc.2 + 1) 0) x)
            (es.zip (digits (es.map fun d => d.groups.length - 1) i)) xs) (es.map fun d => d.degree + 1) (ids.map fun j => coef.getD j 0) := by
  have hcl : List.Forall₂ BezierPatches.Spec.Clamped (es.map (·.mults)) (es.map (·.degree)) := by
    rw [List.forall₂_map_left_iff, List.forall₂_map_right_iff, List.forall₂_same]
    exact fun d _ => d.clamped
  obtain ⟨hn, hids⟩ := BezierPatches.bezier_patch_ids _ _ hcl
  have hspans : (es.map (·.mults)).map (fun m => m.length - 1) = es.map (fun d => d.groups.length - 1) := by
    simp [Dim.mults, Function.comp_def]
  have hres : List.zipWith BezierPatches.Spec.nCps (es.map (·.mults)) (es.map (·.degree)) = es.map (·.nCps) := by
    rw [List.zipWith_map_left, List.zipWith_map_right, List.zipWith_self]
    exact List.map_congr_left fun d _ => (Dim.nCps_eq d).symm
  rw [hspans] at hn
  have hp' : i < (BezierPatches.extractBezierPatchIDs (es.map (·.mults)) (es.map (·.degree))).length := by omega
  obtain ⟨hl, hid⟩ := hids i hp'
  rw [hspans, hres] at hid
  refine ⟨_, List.getElem?_eq_getElem hp', by rw [hl]; simp [Function.comp_def], ?_, ?_⟩
  · intro j hj
    obtain ⟨l, h, rfl⟩ := List.getElem_of_mem hj
    exact (hid l h).1
  generalize (BezierPatches.extractBezierPatchIDs (es.map (·.mults)) (es.map (·.degree)))[i] = ids at *
  intro xs hxs coef
  have hcl2 : (digits (es.map (fun d => d.groups.length - 1)) i).length = es.length := by simp [digits_length]
  have hcin : InGrid (es.map (fun d => d.groups.length - 1)) (digits (es.map (fun d => d.groups.length - 1)) i) := by
    apply digits_inGrid
    simp [Dim.groups]
  have hcget : ∀ i' (h : i' < es.length) (h' : i' < (digits (es.map (fun d => d.groups.length - 1)) i).length),
      (digits (es.map (fun d => d.groups.length - 1)) i)[i'] + 1 < es[i'].groups.length := by
    intro i' h h'
    have := (List.forall₂_iff_get.1 hcin).2 i' (by simpa using h) h'
    simp only [List.get_eq_getElem, List.getElem_map] at this
    have h2 : 2 ≤ es[i'].groups.length := by simp [Dim.groups]
    omega
  generalize digits (es.map (fun d => d.groups.length - 1)) i = cs at *
  have hxl : xs.length = es.length := by have := hxs.length_eq; simp at this; omega
  have hat : ∀ i (h : i < es.length), OnSpan es[i] (cs[i]'(by omega)) (xs[i]'(by omega)) := by
    intro i h
    have := (List.forall₂_iff_get.1 hxs).2 i (by simp; omega) (by omega)
    simpa using this
  let L : List (Window K) := List.zipWith (fun (dc : Dim K × ℕ) x =>
    ⟨basisD dc.1 x, dc.1.nCps, BezierPatches.Spec.start dc.1.mults dc.1.degree dc.2, dc.1.degree + 1⟩) (List.zip es cs) xs
  have hLl : L.length = es.length := by simp [L]; omega
  have hLget : ∀ i (h : i < L.length), L[i] = ⟨basisD (es[i]'(by omega)) (xs[i]'(by omega)), (es[i]'(by omega)).nCps,
      BezierPatches.Spec.start (es[i]'(by omega)).mults (es[i]'(by omega)).degree (cs[i]'(by omega)), (es[i]'(by omega)).degree + 1⟩ := by
    intro i h; simp [L]
  have hspan : ∀ i (h : i < es.length), _ := fun i (h : i < es.length) =>
    basis_on_span ht (hv _ (List.getElem_mem h)) (hm _ (List.getElem_mem h)) (cs[i]'(by omega)) (hcget i h (by omega)) (hat i h)
  have hL : ∀ w ∈ L, w.start + w.width ≤ w.res ∧ ∀ j < w.res, (j < w.start ∨ w.start + w.width ≤ j) → w.b j = 0 := by
    intro w hw
    obtain ⟨i, hi, rfl⟩ := List.getElem_of_mem hw
    rw [hLget i hi]
    have hi' : i < es.length := by omega
    have hc := es[i].clamped
    have hcc := hcget i hi' (by omega)
    have hml : es[i].mults.length = es[i].groups.length := by simp [Dim.mults]
    refine ⟨?_, fun j _ hj => (hspan i hi').1 j hj⟩
    simp only
    have h1 := BezierPatches.start_eq hc (c := cs[i]'(by omega)) (by omega)
    have h2 := BezierPatches.start_add_lt hc (c := cs[i]'(by omega)) (l := es[i].degree) (by omega) (by omega)
    rw [Dim.nCps_eq]
    unfold BezierPatches.Spec.nCps
    unfold BezierPatches.controlMeshResolution at h2
    omega
  have e1 : L.map (·.b) = List.zipWith (fun d x j => basisD d x j) es xs := by
    apply List.ext_getElem
    · simp [hLl]; omega
    · intro i h1 h2; simp [hLget]
  have e2 : L.map (·.res) = es.map (fun d => d.nCps) := by
    apply List.ext_getElem
    · simp [hLl]
    · intro i h1 h2; simp [hLget]
  have e3 : L.map (·.width) = es.map (fun d => d.degree + 1) := by
    apply List.ext_getElem
    · simp [hLl]
    · intro i h1 h2; simp [hLget]
  have e4 : L.map (·.start) = List.zipWith (fun f c => f c) (List.zipWith BezierPatches.Spec.start (es.map (fun d => d.mults)) (es.map (·.degree))) cs := by
    apply List.ext_getElem
    · simp [hLl]; omega
    · intro i h1 h2; simp [hLget]
  have e5 : L.map (fun w q => w.b (w.start + q)) = List.zipWith (fun (dc : Dim K × ℕ) x q => bernstein dc.1.degree q (dc.1.uniqueKnots.getD dc.2 0)
      (dc.1.uniqueKnots.getD (dc.2 + 1) 0) x) (List.zip es cs) xs := by
    apply List.ext_getElem
    · simp [hLl]; omega
    · intro i h1 h2
      have hi : i < es.length := by simp at h1; omega
      funext q
      simp only [List.getElem_map, hLget, List.getElem_zipWith, List.getElem_zip]
      obtain ⟨s1, s2⟩ := hspan i hi
      rcases Nat.lt_or_ge es[i].degree q with hq | hq
      · have hz := s1 (BezierPatches.Spec.start es[i].mults es[i].degree (cs[i]'(by omega)) + q) (by right; omega)
        refine hz.trans ?_
        unfold bernstein
        rw [Nat.choose_eq_zero_of_lt hq]
        simp
      · exact s2 q hq
  rw [← e1, ← e2, tensor_window L hL, e5, e3]
  congr 1
  apply List.ext_getElem
  · simp only [List.length_map, List.length_range]
    rw [hl]
    simp [Function.comp_def]
  · intro l h1 h2
    simp only [List.getElem_map, List.getElem_range]
    congr 1
    have hl' : l < ids.length := by simpa using h2
    obtain ⟨a1, a2⟩ := hid l hl'
    rw [e2, e4]
    have : digits (es.map fun d => d.degree + 1) l = digits ((es.map (·.degree)).map (· + 1)) l := by simp [Function.comp_def]
    rw [this, ← a2]
    exact (flat_digits _ _ a1)

/-- the spline has the given directions -/
structure On (s : Spline K (List K)) (ds : List (Dim K)) : Prop where
  degrees : s.degrees = ds.map (·.degree)
  knots : s.knotVectors = some (ds.map (·.knots))

theorem On.directions {s : Spline K (List K)} {ds : List (Dim K)} (h : On s ds) : directions s = ds.map fun d => ⟨d.degree, some d.knots⟩ := by
  unfold Spec.directions
  rw [h.knots, h.degrees]
  simp only [List.zipWith_map_left, List.zipWith_map_right, List.zipWith_self]

theorem On.netSize {s : Spline K (List K)} {ds : List (Dim K)} (h : On s ds) : netSize s = ds.map (·.nCps) := by
  unfold Spec.netSize
  rw [h.directions, List.map_map]
  rfl

theorem On.basisValues {s : Spline K (List K)} {ds : List (Dim K)} (h : On s ds) (u : List K) :
    basisValues s u = List.zipWith (fun d x j => basisD d x j) ds u := by
  unfold Spec.basisValues
  rw [h.directions, List.zipWith_map_left]
  rfl

/-- Point of the domain of `ds` with the coordinates `v` (each in the unit interval) inside of the span number `cs` of each direction. -/
def Spec.inSpan (ds : List (Dim K)) (cs : List ℕ) (v : List K) : List K :=
  List.zipWith (fun (dc : Dim K × ℕ) x => dc.1.uniqueKnots.getD dc.2 0 + (dc.1.uniqueKnots.getD (dc.2 + 1) 0 - dc.1.uniqueKnots.getD dc.2 0) * x) (ds.zip cs) v

/-- Coordinates in the unit interval that count for the span: the right end does only if the knot there ends the domain or occurs at most degree times
(otherwise the spline may jump there, and its value is the one of the next span). -/
def Spec.Local (ds : List (Dim K)) (cs : List ℕ) (v : List K) : Prop :=
  List.Forall₂ (fun (dc : Dim K × ℕ) x => 0 ≤ x ∧ (x < 1 ∨ (x = 1 ∧ (dc.2 + 2 = dc.1.groups.length ∨ dc.1.mults.getD (dc.2 + 1) 0 ≤ dc.1.degree)))) (ds.zip cs) v

theorem bernstein_unit (p q : ℕ) {a b : K} (hab : a < b) (x : K) : bernstein p q a b (a + (b - a) * x) = bernstein p q 0 1 x := by
  have : b - a ≠ 0 := (sub_pos.2 hab).ne'
  unfold bernstein
  rw [show a + (b - a) * x - a = (b - a) * x by ring, show b - (a + (b - a) * x) = (b - a) * (1 - x) by ring, mul_div_cancel_left₀ _ this,
    mul_div_cancel_left₀ _ this]
  simp

theorem patch_directions (degrees : List ℕ) (dim : ℕ) (r : Bool) (coords : List (List K)) (ids : List ℕ) :
    directions (patch degrees dim r coords ids) = degrees.map fun d => ⟨d, none⟩ := rfl

theorem onSpan_of_local {tol : K} (ht : 0 < tol) {ds : List (Dim K)} (hv : ∀ d ∈ ds, d.Valid tol) {cs : List ℕ} (hcs : InGrid (ds.map fun d => d.groups.length - 1) cs)
    {v : List K} (h : Spec.Local ds cs v) : List.Forall₂ (fun (dc : Dim K × ℕ) x => OnSpan dc.1 dc.2 x) (ds.zip cs) (Spec.inSpan ds cs v) := by
  have hl := h.length_eq
  have hcl : cs.length = ds.length := by have := hcs.length_eq; simpa using this.symm
  rw [List.forall₂_iff_get]
  refine ⟨by simp [Spec.inSpan] at hl ⊢; omega, fun i h1 h2 => ?_⟩
  have hi : i < ds.length := by simp at h1; omega
  have hv1 : i < v.length := by omega
  have h3 := (List.forall₂_iff_get.1 h).2 i h1 hv1
  have h4 := (List.forall₂_iff_get.1 hcs).2 i (by simpa using hi) (by omega)
  simp only [List.get_eq_getElem, List.getElem_zip, List.getElem_map, Spec.inSpan, List.getElem_zipWith] at h3 h4 ⊢
  have hlt := unique_lt ht (hv _ (List.getElem_mem hi)) (Nat.lt_succ_self (cs[i]'(by omega))) (by omega)
  have hpos := sub_pos.2 hlt
  obtain ⟨a1, a2⟩ := h3
  refine ⟨by nlinarith, ?_⟩
  rcases a2 with a2 | ⟨a2, a3⟩
  · left; nlinarith
  · right; rw [a2]; exact ⟨by ring, a3⟩

/-- The points of a patch copied from a spline with full inner multiplicities. -/
theorem patch_points {tol : K} (ht : 0 < tol) (es : List (Dim K)) (hv : ∀ d ∈ es, d.Valid tol) (hm : ∀ d ∈ es, ∀ g ∈ d.inner, d.degree ≤ g.2)
    (q : Spline K (List K)) (hq : ValidSpline q) (hon : On q es) (dim : ℕ) (hdim : ∀ P ∈ q.controlPoints, P.length = dim)
    (i : ℕ) (hi : i < (es.map fun d => d.groups.length - 1).prod) :
    ∃ ids, (BezierPatches.extractBezierPatchIDs (es.map (·.mults)) (es.map (·.degree)))[i]? = some ids ∧
      ValidSpline (patch (es.map (·.degree)) dim q.weights.isSome (coordinates q) ids) ∧
      (∀ P ∈ (patch (es.map (·.degree)) dim q.weights.isSome (coordinates q) ids).controlPoints, P.length = dim) ∧
      ∀ v, Spec.Local es (digits (es.map fun d => d.groups.length - 1) i) v → ∀ k,
        point (patch (es.map (·.degree)) dim q.weights.isSome (coordinates q) ids) v k =
          point q (Spec.inSpan es (digits (es.map fun d => d.groups.length - 1) i) v) k := by
  obtain ⟨ids, h1, h2, h3, h4⟩ := tensor_on_spans ht es hv hm i hi
  have hcin : InGrid (es.map (fun d => d.groups.length - 1)) (digits (es.map (fun d => d.groups.length - 1)) i) := by
    apply digits_inGrid
    simp [Dim.groups]
  have hcl2 : (digits (es.map (fun d => d.groups.length - 1)) i).length = es.length := by simp [digits_length]
  generalize digits (es.map (fun d => d.groups.length - 1)) i = cs at *
  have hnet := hon.netSize
  have hcp : q.controlPoints.length = (es.map (·.nCps)).prod := by rw [hq.net, hnet]
  have hnp : netSize (patch (es.map (·.degree)) dim q.weights.isSome (coordinates q) ids) = es.map fun d => d.degree + 1 := by
    unfold Spec.netSize
    rw [patch_directions]
    simp [Direction.size, Function.comp_def]
  have hdir : ∀ d ∈ Spec.directions (patch (es.map (·.degree)) dim q.weights.isSome (coordinates q) ids), d.Valid := by
    rw [patch_directions]
    intro d hd
    obtain ⟨p, _, rfl⟩ := List.mem_map.1 hd
    intro kv hkv
    cases hkv
  have hbas : ∀ v, Spec.Local es cs v → Spec.basisValues (patch (es.map (·.degree)) dim q.weights.isSome (coordinates q) ids) v =
      List.zipWith (fun (dc : Dim K × ℕ) x q => bernstein dc.1.degree q (dc.1.uniqueKnots.getD dc.2 0) (dc.1.uniqueKnots.getD (dc.2 + 1) 0) x)
            (es.zip cs) (Spec.inSpan es cs v) := by
    intro v hloc
    have hl := hloc.length_eq
    unfold Spec.basisValues
    rw [patch_directions]
    apply List.ext_getElem
    · simp [Spec.inSpan]; simp at hl; omega
    · intro j g1 g2
      have hj : j < es.length := by simp at g1; omega
      have h5 := (List.forall₂_iff_get.1 hcin).2 j (by simpa using hj) (by omega)
      simp only [List.get_eq_getElem, List.getElem_map] at h5
      simp only [List.getElem_zipWith, List.getElem_map, List.getElem_zip, Spec.inSpan]
      funext r
      rw [bernstein_unit _ _ (unique_lt ht (hv _ (List.getElem_mem hj)) (Nat.lt_succ_self (cs[j]'(by omega))) (by omega))]
      rfl
  have hspan : ∀ v, Spec.Local es cs v → ∀ coef : List K, tensorEval (Spec.basisValues q (Spec.inSpan es cs v)) (Spec.netSize q) coef =
      tensorEval (Spec.basisValues (patch (es.map (·.degree)) dim q.weights.isSome (coordinates q) ids) v) (es.map fun d => d.degree + 1) (ids.map fun j => coef.getD j 0) := by
    intro v hloc coef
    rw [hon.basisValues, hnet, hbas v hloc]
    exact h4 _ (onSpan_of_local ht hv hcin hloc) coef
  refine ⟨ids, h1, ?_⟩
  cases hw : q.weights with
  | none =>
    rw [hw] at hnp hdir hspan hbas
    simp only [Option.isSome_none] at hnp hdir hspan hbas ⊢
    have hco : coordinates q = q.controlPoints := by unfold coordinates; rw [hw]
    rw [hco] at hnp hdir hspan hbas ⊢
    have hrow : ∀ j ∈ ids, (q.controlPoints.getD j []).length = dim := by
      intro j hj
      rw [List.getD_eq_getElem _ _ (by rw [hcp]; exact h3 j hj)]
      exact hdim _ (List.getElem_mem _)
    refine ⟨⟨by simp [patch], hdir, ?_, by simp [patch]⟩, ?_, ?_⟩
    · rw [hnp]; simp [patch, h2]
    · intro P hP
      simp only [patch, List.map_map, List.mem_map, Function.comp_apply, Bool.false_eq_true, if_false] at hP
      obtain ⟨j, hj, rfl⟩ := hP
      rw [List.length_take, hrow j hj]; simp
    · intro v hloc k
      have hpw : (patch (es.map (·.degree)) dim false q.controlPoints ids).weights = none := rfl
      have hpc : (patch (es.map (·.degree)) dim false q.controlPoints ids).controlPoints = (ids.map fun i => q.controlPoints.getD i []).map fun r => r.take dim := rfl
      unfold point value
      simp only [hw, hpw]
      rw [hspan v hloc, hnp, hpc]
      refine tensorEval_congr _ _ _ _ fun g hg => ?_
      have hgi : g < ids.length := by omega
      have hlt := h3 _ (List.getElem_mem hgi)
      have hr := hrow _ (List.getElem_mem hgi)
      have hA : (((ids.map fun i => q.controlPoints.getD i []).map fun r => r.take dim).getD g []) = q.controlPoints.getD ids[g] [] := by
        rw [List.getD_eq_getElem _ _ (by simpa using hgi), List.getElem_map, List.getElem_map, List.take_of_length_le hr.le]
      rw [List.getD_eq_getElem _ _ (by simpa using hg), List.getD_eq_getElem (ids.map _) _ (by simpa using hgi)]
      simp only [List.getElem_map, List.getElem_range]
      rw [hA, List.getD_eq_getElem (List.map _ (List.range _)) _ (by rw [hnet]; simpa using hlt)]
      simp only [List.getElem_map, List.getElem_range]
  | some ws =>
    rw [hw] at hnp hdir hspan hbas
    simp only [Option.isSome_some] at hnp hdir hspan hbas ⊢
    obtain ⟨hwl, hwp⟩ := hq.weights ws hw
    have hco : ∀ j, j < (es.map (·.nCps)).prod → (coordinates q).getD j [] = (q.controlPoints.getD j []).map (ws.getD j 0 * ·) ++ [ws.getD j 0] := by
      intro j hj
      unfold coordinates
      rw [hw]
      simp only
      rw [List.getD_eq_getElem _ _ (by simp; omega), List.getElem_zipWith, List.getD_eq_getElem _ _ (by omega), List.getD_eq_getElem _ _ (by omega)]
    have hrow : ∀ j ∈ ids, (q.controlPoints.getD j []).length = dim := by
      intro j hj
      rw [List.getD_eq_getElem _ _ (by rw [hcp]; exact h3 j hj)]
      exact hdim _ (List.getElem_mem _)
    have hwt : ∀ j ∈ ids, ((coordinates q).getD j []).getD dim 0 = ws.getD j 0 ∧ 0 < ws.getD j 0 := by
      intro j hj
      rw [hco j (h3 j hj)]
      constructor
      · rw [List.getD_append_right _ _ _ _ (by simp only [List.length_map, hrow j hj, le_refl]), List.length_map, hrow j hj, Nat.sub_self]
        rfl
      · rw [List.getD_eq_getElem _ _ (by have := h3 j hj; omega)]
        exact hwp _ (List.getElem_mem _)
    have hct : ∀ j ∈ ids, ∀ r < dim, ((coordinates q).getD j []).getD r 0 = ws.getD j 0 * (q.controlPoints.getD j []).getD r 0 := by
      intro j hj r hr
      rw [hco j (h3 j hj), List.getD_append _ _ _ _ (by simp only [List.length_map, hrow j hj, hr])]
      rw [List.getD_eq_getElem _ _ (by simp only [List.length_map, hrow j hj, hr]), List.getElem_map, List.getD_eq_getElem (q.controlPoints.getD j []) _ (by rw [hrow j hj]; exact hr)]
    refine ⟨⟨by simp [patch], hdir, ?_, ?_⟩, ?_, ?_⟩
    · rw [hnp]; simp [patch, h2]
    · intro ws' hws'
      simp only [patch, if_true, Option.some.injEq] at hws' ⊢
      subst hws'
      refine ⟨by simp, fun w hwm => ?_⟩
      simp only [List.map_map, List.mem_map, Function.comp_apply] at hwm
      obtain ⟨j, hj, rfl⟩ := hwm
      rw [(hwt j hj).1]; exact (hwt j hj).2
    · intro P hP
      simp only [patch, List.map_map, List.mem_map, Function.comp_apply, if_true] at hP
      obtain ⟨j, hj, rfl⟩ := hP
      simp
    · intro v hloc k
      have hpw : (patch (es.map (·.degree)) dim true (coordinates q) ids).weights = some ((ids.map fun i => (coordinates q).getD i []).map fun r => r.getD dim 0) := rfl
      have hpc : (patch (es.map (·.degree)) dim true (coordinates q) ids).controlPoints =
          (ids.map fun i => (coordinates q).getD i []).map fun r => (List.range dim).map fun i => r.getD i 0 * (1 / r.getD dim 0) := rfl
      unfold point value
      simp only [hw, hpw]
      rw [hspan v hloc, hspan v hloc, hnp, hpc]
      congr 1
      · refine tensorEval_congr _ _ _ _ fun g hg => ?_
        have hgi : g < ids.length := by omega
        have hmem := List.getElem_mem hgi
        have hlt := h3 _ hmem
        have hr := hrow _ hmem
        obtain ⟨w1, w2⟩ := hwt _ hmem
        have hA : ((ids.map fun i => (coordinates q).getD i []).map fun r => r.getD dim 0).getD g 0 = ws.getD ids[g] 0 := by
          rw [List.getD_eq_getElem _ _ (by simpa using hgi), List.getElem_map, List.getElem_map, w1]
        have hB : (((ids.map fun i => (coordinates q).getD i []).map fun r => (List.range dim).map fun i => r.getD i 0 * (1 / r.getD dim 0)).getD g []) =
            (List.range dim).map fun i => ((coordinates q).getD ids[g] []).getD i 0 * (1 / ws.getD ids[g] 0) := by
          rw [List.getD_eq_getElem _ _ (by simpa using hgi), List.getElem_map, List.getElem_map, w1]
        rw [List.getD_eq_getElem _ _ (by simpa using hg), List.getD_eq_getElem (ids.map _) _ (by simpa using hgi)]
        simp only [List.getElem_map, List.getElem_range]
        rw [hA, hB, List.getD_eq_getElem (List.map _ (List.range (netSize q).prod)) _ (by rw [hnet]; simpa using hlt)]
        simp only [List.getElem_map, List.getElem_range]
        rcases Nat.lt_or_ge k dim with hk | hk
        · rw [List.getD_eq_getElem (List.map _ (List.range _)) _ (by simpa using hk)]
          simp only [List.getElem_map, List.getElem_range]
          rw [hct _ hmem k hk]
          field_simp
        · rw [List.getD_eq_default (List.map _ (List.range dim)) _ (by simpa using hk), List.getD_eq_default (q.controlPoints.getD _ []) _ (by rw [hr]; exact hk)]
      · congr 1
        rw [List.map_map]
        refine List.map_congr_left fun j hj => ?_
        rw [Function.comp_apply, (hwt j hj).1]

/-! ### insertion of the knots -/

/-- What `DetermineBezierExtractionKnots` promises: each knot of the direction as often as it is missing for multiplicity degree. -/
def Spec.Needed (needed : Spline K (List K) → ℕ → List K) : Prop :=
  ∀ (q : Spline K (List K)) kvs axis p kv, q.knotVectors = some kvs → q.degrees[axis]? = some p → kvs[axis]? = some kv →
    ∀ v, (needed q axis).count v = if v ∈ kv then p - kv.count v else 0

/-- What `KnotMultiplicities` promises: lengths of the runs of equal knots, for distinct knots at least the tolerance apart. -/
def Spec.Multiplicities (tol : K) (mults : List K → List ℕ) : Prop :=
  ∀ gs : List (K × ℕ), (gs.map (·.1)).Pairwise (fun x y => x + tol ≤ y) → (∀ g ∈ gs, 1 ≤ g.2) → mults (expand gs) = gs.map (·.2)

/-- What `InsertKnot` promises for the splines `F` (closed under insertion): a knot that occurs less than degree times is inserted once more, and the points
stay (`Spec.Inserted`), as does the number of columns of the control points. -/
structure Spec.Inserts (F : Spline K (List K) → Prop) (insertKnot : Spline K (List K) → ℕ → K → Option (Spline K (List K))) : Prop where
  step : ∀ q kvs axis p kv x, F q → q.knotVectors = some kvs → q.degrees[axis]? = some p → kvs[axis]? = some kv → x ∈ kv → kv.count x < p →
    ∃ q', insertKnot q axis x = some q' ∧ F q' ∧ Spec.Inserted q q' axis [x] ∧
      ∀ dim, (∀ P ∈ q.controlPoints, P.length = dim) → ∀ P ∈ q'.controlPoints, P.length = dim

theorem insertAll_spec {F : Spline K (List K) → Prop} {insertKnot : Spline K (List K) → ℕ → K → Option (Spline K (List K))} (hF : Spec.Inserts F insertKnot)
    (dim axis : ℕ) (l : List K) (s : Spline K (List K)) (hs : ValidSpline s) (h0 : F s) (hdim : ∀ P ∈ s.controlPoints, P.length = dim) (kvs : List (List K)) (p : ℕ) (kv : List K)
    (h1 : s.knotVectors = some kvs) (h2 : s.degrees[axis]? = some p) (h3 : kvs[axis]? = some kv) (hl : ∀ v ∈ l, v ∈ kv ∧ kv.count v + l.count v ≤ p) :
    ∃ q kv', insertAll insertKnot axis l s = some q ∧ F q ∧ ValidSpline q ∧ q.degrees = s.degrees ∧ q.knotVectors = some (kvs.set axis kv') ∧
      (∀ v, kv'.count v = kv.count v + l.count v) ∧ q.weights.isSome = s.weights.isSome ∧ (∀ P ∈ q.controlPoints, P.length = dim) ∧
      ∀ u, InDomain s u → InDomain q u ∧ ∀ k, point q u k = point s u k := by
  induction l generalizing s kvs kv with
  | nil =>
    refine ⟨s, kv, rfl, h0, hs, rfl, ?_, fun v => by simp, rfl, hdim, fun u hu => ⟨hu, fun k => rfl⟩⟩
    obtain ⟨h, e⟩ := List.getElem?_eq_some_iff.1 h3
    rw [h1, ← e, List.set_getElem_self]
  | cons x l ih =>
    obtain ⟨hx1, hx2⟩ := hl x (by simp)
    rw [List.count_cons_self] at hx2
    obtain ⟨q', e, hf, hi, hd⟩ := hF.step s kvs axis p kv x h0 h1 h2 h3 hx1 (by omega)
    obtain ⟨kv', k1, k2⟩ := hi.knots kvs p kv h1 h2 h3
    have hax : axis < kvs.length := (List.getElem?_eq_some_iff.1 h3).1
    have hcount : ∀ v, kv'.count v = kv.count v + [x].count v := by
      intro v
      rw [k2 v]
      by_cases hvx : v = x
      · subst hvx; simp; omega
      · rw [List.count_singleton]; simp [Ne.symm hvx]
    obtain ⟨q, kv'', a1, a2, a3, a4, a5, a6, a7, a8, a9⟩ := ih q' hi.valid hf (hd dim hdim) (kvs.set axis kv') kv' k1 (by rw [hi.degrees, h2])
      (by rw [List.getElem?_set_self hax]) (by
        intro v hv
        obtain ⟨b1, b2⟩ := hl v (by simp [hv])
        refine ⟨?_, ?_⟩
        · rw [← List.one_le_count_iff] at b1 ⊢
          rw [hcount]; omega
        · rw [hcount]
          rw [List.count_cons] at b2
          rw [List.count_singleton]
          omega)
    refine ⟨q, kv'', by rw [insertAll, e]; exact a1, a2, a3, a4.trans hi.degrees, by rw [a5, List.set_set], ?_, a7.trans hi.rational, a8, ?_⟩
    · intro v
      rw [a6, hcount, List.count_singleton, List.count_cons]
      omega
    · intro u hu
      obtain ⟨b1, b2⟩ := hi.same u hu
      obtain ⟨b3, b4⟩ := a9 u b1
      exact ⟨b3, fun k => (b4 k).trans (b2 k)⟩

/-- the direction with inner multiplicities raised to the degree -/
def raised (d : Dim K) : Dim K := { d with inner := d.inner.map fun g => (g.1, max d.degree g.2) }

theorem raised_groups (d : Dim K) : (raised d).groups = d.groups.map fun g => (g.1, max d.degree g.2) := by
  simp [raised, Dim.groups]

theorem raised_unique (d : Dim K) : (raised d).uniqueKnots = d.uniqueKnots := by
  unfold Dim.uniqueKnots
  rw [raised_groups, List.map_map]; rfl

theorem raised_mults (d : Dim K) : (raised d).mults = d.mults.map (max d.degree ·) := by
  unfold Dim.mults
  rw [raised_groups, List.map_map, List.map_map]; rfl

theorem raised_valid {tol : K} {d : Dim K} (hv : d.Valid tol) : (raised d).Valid tol where
  degree := hv.degree
  mult := by
    intro g hg
    obtain ⟨g', hg', rfl⟩ := List.mem_map.1 hg
    exact le_max_of_le_right (hv.mult g' hg')
  gap := by
    rw [raised_groups, List.map_map]
    exact hv.gap

theorem count_expand (gs : List (K × ℕ)) (h : (gs.map (·.1)).Nodup) (v : K) :
    (v ∉ gs.map (·.1) → (expand gs).count v = 0) ∧ ∀ m, (v, m) ∈ gs → (expand gs).count v = m := by
  induction gs with
  | nil => simp [expand]
  | cons g gs ih =>
    rw [List.map_cons, List.nodup_cons] at h
    obtain ⟨i1, i2⟩ := ih h.2
    rw [expand_cons, List.count_append, List.count_replicate]
    constructor
    · intro hv
      rw [List.map_cons, List.mem_cons, not_or] at hv
      rw [i1 hv.2, if_neg (by simpa using Ne.symm hv.1)]
    · intro m hm
      rcases List.mem_cons.1 hm with rfl | hm
      · rw [i1 h.1]; simp
      · rw [i2 m hm, if_neg, zero_add]
        intro he
        simp only [beq_iff_eq] at he
        exact h.1 (List.mem_map.2 ⟨_, hm, he.symm⟩)

theorem groups_nodup {tol : K} (ht : 0 < tol) {d : Dim K} (hv : d.Valid tol) : (d.groups.map (·.1)).Nodup :=
  hv.gap.imp fun {a b} h => by rintro rfl; linarith

theorem groups_pos {tol : K} {d : Dim K} (hv : d.Valid tol) : ∀ g ∈ d.groups, 1 ≤ g.2 := by
  intro g hg
  simp only [Dim.groups, List.cons_append, List.mem_cons, List.mem_append, List.mem_nil_iff, or_false] at hg
  rcases hg with rfl | hg | rfl
  · simp
  · exact hv.mult g hg
  · simp

theorem count_raised {tol : K} (ht : 0 < tol) {d : Dim K} (hv : d.Valid tol) (v : K) :
    (raised d).knots.count v = d.knots.count v + if v ∈ d.knots then d.degree - d.knots.count v else 0 := by
  obtain ⟨a1, a2⟩ := count_expand d.groups (groups_nodup ht hv) v
  obtain ⟨b1, b2⟩ := count_expand (raised d).groups (groups_nodup ht (raised_valid hv)) v
  change (expand (raised d).groups).count v = (expand d.groups).count v + if v ∈ expand d.groups then d.degree - (expand d.groups).count v else 0
  by_cases h : v ∈ d.groups.map (·.1)
  · obtain ⟨⟨v', m⟩, hg, rfl⟩ := List.mem_map.1 h
    simp only at *
    have hp : 1 ≤ m := groups_pos hv _ hg
    rw [a2 m hg, b2 (max d.degree m) (by rw [raised_groups]; exact List.mem_map.2 ⟨_, hg, rfl⟩), if_pos (List.one_le_count_iff.1 (by rw [a2 m hg]; exact hp))]
    omega
  · rw [a1 h, b1 (by rw [raised_groups, List.map_map]; exact h), if_neg]
    intro hm
    have := List.one_le_count_iff.2 hm
    rw [a1 h] at this
    omega

theorem eq_of_counts {a b : List K} (ha : a.Pairwise (· ≤ ·)) (hb : b.Pairwise (· ≤ ·)) (h : ∀ v, a.count v = b.count v) : a = b :=
  (List.perm_iff_count.2 h).eq_of_pairwise (fun _ _ _ _ => le_antisymm) ha hb

theorem refineAll_spec {tol : K} (ht : 0 < tol) {F : Spline K (List K) → Prop} {insertKnot : Spline K (List K) → ℕ → K → Option (Spline K (List K))}
    (hF : Spec.Inserts F insertKnot) {needed : Spline K (List K) → ℕ → List K} (hneed : Spec.Needed needed) (dim : ℕ) (todo done : List (Dim K))
    (hv : ∀ d ∈ todo, d.Valid tol) (s : Spline K (List K)) (hs : ValidSpline s) (h0 : F s) (hdim : ∀ P ∈ s.controlPoints, P.length = dim) (hon : On s (done ++ todo)) :
    ∃ q, refineAll needed insertKnot todo.length done.length s = some q ∧ ValidSpline q ∧ On q (done ++ todo.map raised) ∧
      q.weights.isSome = s.weights.isSome ∧ (∀ P ∈ q.controlPoints, P.length = dim) ∧
      ∀ u, InDomain s u → InDomain q u ∧ ∀ k, point q u k = point s u k := by
  induction todo generalizing done s with
  | nil => exact ⟨s, rfl, hs, by simpa using hon, rfl, hdim, fun u hu => ⟨hu, fun k => rfl⟩⟩
  | cons d todo ih =>
    have hd := hv d (by simp)
    have hg : (done ++ d :: todo)[done.length]? = some d := by simp
    have hdeg : s.degrees[done.length]? = some d.degree := by rw [hon.degrees, List.getElem?_map, hg]; rfl
    have hkv : ((done ++ d :: todo).map (·.knots))[done.length]? = some d.knots := by rw [List.getElem?_map, hg]; rfl
    have hn := hneed s _ done.length d.degree d.knots hon.knots hdeg hkv
    obtain ⟨q, kv', a1, a2, a3, a4, a5, a6, a7, a8, a9⟩ := insertAll_spec hF dim done.length (needed s done.length) s hs h0 hdim _ d.degree d.knots hon.knots hdeg hkv (by
      intro v hvm
      have h1 := List.one_le_count_iff.2 hvm
      rw [hn v] at h1 ⊢
      split at h1
      · next h => exact ⟨h, by rw [if_pos h]; omega⟩
      · omega)
    have hlen : done.length < ((done ++ d :: todo).map (·.knots)).length := by simp
    have hsort : kv'.Pairwise (· ≤ ·) := by
      have hmem : (⟨d.degree, some kv'⟩ : Direction K) ∈ directions q := by
        unfold Spec.directions
        rw [a5, a4]
        simp only
        refine List.mem_iff_getElem?.2 ⟨done.length, ?_⟩
        rw [List.getElem?_zipWith, hdeg, List.getElem?_set_self hlen]
      exact (a3.dirs _ hmem kv' rfl).1
    have hk : kv' = (raised d).knots := by
      refine eq_of_counts hsort (expand_sorted (gap_le ht (raised_valid hd).gap)) fun v => ?_
      rw [a6, hn, count_raised ht hd]
    have hon' : On q ((done ++ [raised d]) ++ todo) := by
      refine ⟨?_, ?_⟩
      · rw [a4, hon.degrees]; simp [raised]
      · rw [a5, hk]
        congr 1
        simp [List.set_append]
    obtain ⟨q2, b1, b2, b3, b4, b5, b6⟩ := ih (done ++ [raised d]) (fun d hd => hv d (by simp [hd])) q a3 a2 a8 hon'
    refine ⟨q2, ?_, b2, by simpa using b3, b4.trans a7, b5, fun u hu => ?_⟩
    · rw [List.length_cons, refineAll, a1]
      simpa using b1
    · obtain ⟨c1, c2⟩ := a9 u hu
      obtain ⟨c3, c4⟩ := b6 u c1
      exact ⟨c3, fun k => (c4 k).trans (c2 k)⟩

/-! ### the whole function -/

/-- every parameter of a direction is on a span -/
theorem exists_span {tol : K} (ht : 0 < tol) {d : Dim K} (hv : d.Valid tol) {x : K} (h1 : d.first ≤ x) (h2 : x ≤ d.last) :
    ∃ c, c < d.inner.length + 1 ∧ d.uniqueKnots.getD c 0 ≤ x ∧ (x < d.uniqueKnots.getD (c + 1) 0 ∨ (x = d.uniqueKnots.getD (c + 1) 0 ∧ c + 2 = d.groups.length)) := by
  have hg : d.groups.length = d.inner.length + 2 := by simp [Dim.groups]
  have h0 : d.uniqueKnots.getD 0 0 = d.first := by simp [Dim.uniqueKnots, Dim.groups]
  have hl := unique_last d
  rw [hg] at hl
  have hspec := Nat.findGreatest_spec (P := fun c => d.uniqueKnots.getD c 0 ≤ x) (Nat.zero_le d.inner.length) (by rw [h0]; exact h1)
  have hle := Nat.findGreatest_le (P := fun c => d.uniqueKnots.getD c 0 ≤ x) d.inner.length
  have hgr : ∀ k, Nat.findGreatest (fun c => d.uniqueKnots.getD c 0 ≤ x) d.inner.length < k → k ≤ d.inner.length → ¬ d.uniqueKnots.getD k 0 ≤ x :=
    fun k => Nat.findGreatest_is_greatest
  generalize Nat.findGreatest (fun c => d.uniqueKnots.getD c 0 ≤ x) d.inner.length = c at *
  refine ⟨c, by omega, hspec, ?_⟩
  rcases Nat.lt_or_ge c d.inner.length with h | h
  · exact Or.inl (not_le.1 (hgr (c + 1) (by omega) (by omega)))
  · have hc : c + 1 = d.inner.length + 2 - 1 := by omega
    rw [hc, hl]
    rcases lt_or_eq_of_le h2 with h3 | h3
    · exact Or.inl h3
    · exact Or.inr ⟨h3, by omega⟩

theorem first_le_unique {tol : K} (ht : 0 < tol) {d : Dim K} (hv : d.Valid tol) {c : ℕ} (hc : c < d.groups.length) : d.first ≤ d.uniqueKnots.getD c 0 := by
  have h0 : d.uniqueKnots.getD 0 0 = d.first := by simp [Dim.uniqueKnots, Dim.groups]
  rcases Nat.eq_zero_or_pos c with rfl | h
  · rw [h0]
  · rw [← h0]; exact (unique_lt ht hv h hc).le

theorem unique_le_last {tol : K} (ht : 0 < tol) {d : Dim K} (hv : d.Valid tol) {c : ℕ} (hc : c < d.groups.length) : d.uniqueKnots.getD c 0 ≤ d.last := by
  rw [← unique_last]
  rcases Nat.eq_or_lt_of_le (show c ≤ d.groups.length - 1 by omega) with rfl | h
  · exact le_rfl
  · exact (unique_lt ht hv h (by omega)).le

theorem lower_dim (d : Dim K) : (⟨d.degree, some d.knots⟩ : Direction K).lower = d.first := d.start_knot _ le_rfl

theorem upper_dim (d : Dim K) : (⟨d.degree, some d.knots⟩ : Direction K).upper = d.last := d.end_knot

/-- C111: for a spline with clamped knot vectors and positive degrees, `beziers` returns one patch for each combination of non-empty knot spans, the first
direction running fastest. Each patch is a Bezier of the same degrees, rational exactly for a rational spline, and its point at `v` is the point of the spline
at the place of `v` inside of the knot span. Each point of the spline is on one of the patches. -/
theorem beziers_points {tol : K} (ht : 0 < tol) (needed : Spline K (List K) → ℕ → List K) (hneed : Spec.Needed needed) (mults : List K → List ℕ)
    (hmult : Spec.Multiplicities tol mults) (F : Spline K (List K) → Prop) (insertKnot : Spline K (List K) → ℕ → K → Option (Spline K (List K)))
    (hF : Spec.Inserts F insertKnot) (ds : List (Dim K)) (hv : ∀ d ∈ ds, d.Valid tol) (s : Spline K (List K)) (hs : ValidSpline s) (h0 : F s) (hon : On s ds)
    (dim : ℕ) (hdim : ∀ P ∈ s.controlPoints, P.length = dim) :
    ∃ bs, beziers needed insertKnot mults s = some bs ∧ bs.length = (ds.map fun d => d.inner.length + 1).prod ∧
      (∀ i (hi : i < bs.length), ValidSpline bs[i] ∧ bs[i].degrees = s.degrees ∧ bs[i].knotVectors = none ∧ bs[i].weights.isSome = s.weights.isSome ∧
        (∀ P ∈ bs[i].controlPoints, P.length = dim) ∧
        ∀ v, Spec.Local ds (digits (ds.map fun d => d.inner.length + 1) i) v →
          InDomain s (Spec.inSpan ds (digits (ds.map fun d => d.inner.length + 1) i) v) ∧
          ∀ k, point bs[i] v k = point s (Spec.inSpan ds (digits (ds.map fun d => d.inner.length + 1) i) v) k) ∧
      ∀ u, InDomain s u → ∃ i < bs.length, ∃ v, Spec.Local ds (digits (ds.map fun d => d.inner.length + 1) i) v ∧
        Spec.inSpan ds (digits (ds.map fun d => d.inner.length + 1) i) v = u := by
  obtain ⟨q, r1, r2, r3, r4, r5, r6⟩ := refineAll_spec ht hF hneed dim ds [] hv s hs h0 hdim (by simpa using hon)
  simp only [List.nil_append, List.length_nil] at r1 r3
  have hdl : s.degrees.length = ds.length := by rw [hon.degrees]; simp
  have hgl : ∀ d : Dim K, d.groups.length - 1 = d.inner.length + 1 := fun d => by simp [Dim.groups]
  have hgr : ((ds.map raised).map fun d => d.groups.length - 1) = ds.map fun d => d.inner.length + 1 := by
    rw [List.map_map]
    refine List.map_congr_left fun d _ => ?_
    simp [hgl, raised]
  have hvr : ∀ d ∈ ds.map raised, d.Valid tol := by
    intro d hd
    obtain ⟨d', hd', rfl⟩ := List.mem_map.1 hd
    exact raised_valid (hv d' hd')
  have hmr : ∀ d ∈ ds.map raised, ∀ g ∈ d.inner, d.degree ≤ g.2 := by
    intro d hd g hg
    obtain ⟨d', hd', rfl⟩ := List.mem_map.1 hd
    obtain ⟨g', hg', rfl⟩ := List.mem_map.1 hg
    exact le_max_left _ _
  have hmm : (q.knotVectors.getD []).map mults = (ds.map raised).map (·.mults) := by
    rw [r3.knots, Option.getD_some, List.map_map]
    refine List.map_congr_left fun d hd => ?_
    have := hvr d hd
    exact hmult d.groups this.gap (groups_pos this)
  have hdeg : s.degrees = (ds.map raised).map (·.degree) := by rw [hon.degrees, List.map_map]; rfl
  -- control points exist
  have hne : s.controlPoints ≠ [] := by
    intro he
    have hn := hs.net
    rw [he, hon.netSize, List.length_nil, eq_comm, List.prod_eq_zero_iff] at hn
    obtain ⟨d, _, hd⟩ := List.mem_map.1 hn
    have := d.knots_length
    unfold Dim.nCps at hd
    omega
  have hdim' : (s.controlPoints.headD []).length = dim := by
    obtain ⟨P, Ps, e⟩ := List.exists_cons_of_ne_nil hne
    rw [e]
    exact hdim P (by rw [e]; simp)
  have hbez : beziers needed insertKnot mults s = some ((BezierPatches.extractBezierPatchIDs ((ds.map raised).map (·.mults)) ((ds.map raised).map (·.degree))).map
      (patch ((ds.map raised).map (·.degree)) dim q.weights.isSome (coordinates q))) := by
    unfold beziers extractBezierPatches
    rw [if_pos (by rw [hon.knots]; rfl), hon.knots, hdl]
    simp only
    rw [r1, Option.map_some, hmm, hdim', r4, hdeg]
  have hcl : List.Forall₂ BezierPatches.Spec.Clamped ((ds.map raised).map (·.mults)) ((ds.map raised).map (·.degree)) := by
    rw [List.forall₂_map_left_iff, List.forall₂_map_right_iff, List.forall₂_same]
    exact fun d _ => d.clamped
  have hlen := (BezierPatches.bezier_patch_ids _ _ hcl).1
  have hspans : ((ds.map raised).map (·.mults)).map (fun m => m.length - 1) = ds.map fun d => d.inner.length + 1 := by
    rw [← hgr, List.map_map]
    refine List.map_congr_left fun d _ => ?_
    simp [Dim.mults]
  simp only [hspans] at hlen
  -- positions do not depend on the multiplicities
  have hin : ∀ cs v, Spec.inSpan (ds.map raised) cs v = Spec.inSpan ds cs v := by
    intro cs v
    unfold Spec.inSpan
    rw [List.zip_map_left, List.zipWith_map_left]
    simp only [Prod.map_fst, Prod.map_snd, raised_unique, id]
  have hlo : ∀ cs v, InGrid (ds.map fun d => d.inner.length + 1) cs → Spec.Local ds cs v → Spec.Local (ds.map raised) cs v := by
    intro cs v hcs h
    unfold Spec.Local at h ⊢
    rw [List.zip_map_left, List.forall₂_map_left_iff]
    rw [List.forall₂_iff_get] at h ⊢
    refine ⟨h.1, fun j j1 j2 => ?_⟩
    obtain ⟨a1, a2⟩ := h.2 j j1 j2
    have hj : j < ds.length := by simp at j1; omega
    have hjc : j < cs.length := by simp at j1; omega
    have h5 := (List.forall₂_iff_get.1 hcs).2 j (by simpa using hj) hjc
    simp only [List.get_eq_getElem, List.getElem_map] at h5
    simp only [List.get_eq_getElem, List.getElem_zip, Prod.map_fst, Prod.map_snd, id] at a1 a2 ⊢
    refine ⟨a1, a2.imp_right fun ⟨b1, b2⟩ => ⟨b1, b2.imp (fun e => by rw [raised_groups, List.length_map]; exact e) fun e => ?_⟩⟩
    rw [raised_mults]
    have hml : ds[j].mults.length = ds[j].groups.length := by simp [Dim.mults]
    have := hgl ds[j]
    rw [List.getD_eq_getElem _ _ (by rw [List.length_map, hml]; omega), List.getElem_map]
    rw [List.getD_eq_getElem _ _ (by rw [hml]; omega)] at e
    exact max_le le_rfl e
  have hpos : ∀ n ∈ ds.map (fun d => d.inner.length + 1), 0 < n := by
    intro n hn
    obtain ⟨d, _, rfl⟩ := List.mem_map.1 hn
    omega
  have hdom : ∀ u, InDomain s u ↔ List.Forall₂ (fun (d : Dim K) x => d.first ≤ x ∧ x ≤ d.last) ds u := by
    intro u
    unfold InDomain
    rw [hon.directions, List.forall₂_map_left_iff]
    simp only [Direction.Contains, lower_dim, upper_dim]
  refine ⟨_, hbez, by rw [List.length_map]; exact hlen, ?_, ?_⟩
  · intro i hi
    rw [List.length_map, hlen] at hi
    have hcs := digits_inGrid (ds.map fun d => d.inner.length + 1) i hpos
    obtain ⟨ids, p1, p2, p3, p4⟩ := patch_points ht (ds.map raised) hvr hmr q r2 r3 dim r5 i (by rw [hgr]; exact hi)
    rw [hgr] at p4
    have hget := (List.getElem?_eq_some_iff.1 p1)
    obtain ⟨hp, hids⟩ := hget
    rw [List.getElem_map, hids]
    refine ⟨p2, hdeg.symm, rfl, ?_, p3, fun v hloc => ?_⟩
    · rw [← r4]
      cases q.weights <;> rfl
    have hD : InDomain s (Spec.inSpan ds (digits (ds.map fun d => d.inner.length + 1) i) v) := by
      rw [hdom]
      have hcl2 : (digits (ds.map fun d => d.inner.length + 1) i).length = ds.length := by simp [digits_length]
      have hsp := onSpan_of_local ht hv (cs := digits (ds.map fun d => d.inner.length + 1) i) (by simp only [hgl]; exact hcs) hloc
      rw [List.forall₂_iff_get] at hsp ⊢
      refine ⟨by have := hsp.1; simp at this; omega, fun j j1 j2 => ?_⟩
      have h6 := hsp.2 j (by simp; omega) j2
      have h5 := (List.forall₂_iff_get.1 hcs).2 j (by simpa using j1) (by omega)
      simp only [List.get_eq_getElem, List.getElem_zip, List.getElem_map] at h5 h6 ⊢
      have hg := hgl ds[j]
      refine ⟨le_trans (first_le_unique ht (hv _ (List.getElem_mem j1)) (by omega)) h6.1, le_trans ?_ (unique_le_last ht (hv _ (List.getElem_mem j1))
        (c := (digits (ds.map fun d => d.inner.length + 1) i)[j]'(by omega) + 1) (by omega))⟩
      rcases h6.2 with h | h
      · exact h.le
      · exact h.1.le
    refine ⟨hD, fun k => ?_⟩
    rw [p4 v (hlo _ v hcs hloc) k, hin]
    exact (r6 _ hD).2 k
  · intro u hu
    rw [hdom] at hu
    have : ∃ cs v, InGrid (ds.map fun d => d.inner.length + 1) cs ∧ Spec.Local ds cs v ∧ Spec.inSpan ds cs v = u := by
      clear hbez hcl hlen hspans hin hlo hpos hdom r1 r2 r3 r4 r5 r6 hdl hgr hvr hmr hmm hdeg hon
      induction hu with
      | nil => exact ⟨[], [], List.Forall₂.nil, List.Forall₂.nil, rfl⟩
      | @cons d x ds u hx _ ih =>
        obtain ⟨cs, v, i1, i2, i3⟩ := ih (fun d hd => hv d (by simp [hd]))
        obtain ⟨c, c1, c2, c3⟩ := exists_span ht (hv d (by simp)) hx.1 hx.2
        have hlt := unique_lt ht (hv d (by simp)) (Nat.lt_succ_self c) (by have := hgl d; omega)
        have hp := sub_pos.2 hlt
        refine ⟨c :: cs, (x - d.uniqueKnots.getD c 0) / (d.uniqueKnots.getD (c + 1) 0 - d.uniqueKnots.getD c 0) :: v, List.Forall₂.cons c1 i1,
          List.Forall₂.cons ⟨div_nonneg (sub_nonneg.2 c2) hp.le, ?_⟩ i2, ?_⟩
        · rcases c3 with c3 | ⟨c3, c4⟩
          · left; rw [div_lt_one hp]; linarith
          · right; exact ⟨by rw [c3]; exact div_self hp.ne', Or.inl c4⟩
        · change _ :: _ = _
          congr 1
          simp only
          rw [mul_div_cancel₀ _ hp.ne']
          ring
    obtain ⟨cs, v, a1, a2, a3⟩ := this
    refine ⟨flat (ds.map fun d => d.inner.length + 1) cs, by rw [List.length_map, hlen]; exact flat_lt _ _ a1, v, ?_⟩
    rw [digits_flat _ _ a1]
    exact ⟨a2, a3⟩

/-- C111: a spline without knot vectors is its only patch. -/
theorem beziers_of_bezier (needed : Spline K (List K) → ℕ → List K) (insertKnot : Spline K (List K) → ℕ → K → Option (Spline K (List K)))
    (mults : List K → List ℕ) (s : Spline K (List K)) (h : s.knotVectors = none) : beziers needed insertKnot mults s = some [s] := by
  unfold beziers
  rw [h]
  rfl

/-! ### the contracts can be met -/

/-- run lengths of a list -/
def runs : List K → List ℕ
  | [] => []
  | [_] => [1]
  | x :: y :: l =>
    if x = y then
      match runs (y :: l) with
      | m :: ms => (m + 1) :: ms
      | [] => []
    else 1 :: runs (y :: l)

theorem runs_replicate (v : K) (m : ℕ) (rest : List K) (h : v ∉ rest) : runs (List.replicate (m + 1) v ++ rest) = (m + 1) :: runs rest := by
  induction m with
  | zero =>
    cases rest with
    | nil => rfl
    | cons y l =>
      change runs (v :: y :: l) = _
      rw [runs, if_neg (fun e => h (by rw [e]; simp))]
  | succ m ih =>
    change runs (v :: v :: (List.replicate m v ++ rest)) = _
    have ih' : runs (v :: (List.replicate m v ++ rest)) = (m + 1) :: runs rest := ih
    rw [runs, if_pos rfl, ih']

theorem runs_multiplicities {tol : K} (ht : 0 < tol) : Spec.Multiplicities tol runs := by
  intro gs h1 h2
  induction gs with
  | nil => rfl
  | cons g gs ih =>
    rw [List.map_cons, List.pairwise_cons] at h1
    obtain ⟨m, hm⟩ : ∃ m, g.2 = m + 1 := ⟨g.2 - 1, by have := h2 g (by simp); omega⟩
    rw [expand_cons, List.map_cons, hm, runs_replicate, ih h1.2 fun g hg => h2 g (by simp [hg])]
    intro hmem
    have := h1.1 _ (mem_expand hmem)
    linarith

/-- missing knots of a direction -/
def missing (q : Spline K (List K)) (axis : ℕ) : List K :=
  match (q.knotVectors.getD [])[axis]?, q.degrees[axis]? with
  | some kv, some p => expand (kv.dedup.map fun v => (v, p - kv.count v))
  | _, _ => []

theorem missing_needed : Spec.Needed (missing (K := K)) := by
  intro q kvs axis p kv h1 h2 h3 v
  unfold missing
  rw [h1, Option.getD_some, h3, h2]
  simp only
  have hk : (kv.dedup.map fun v => (v, p - kv.count v)).map (·.1) = kv.dedup := by simp [Function.comp_def]
  obtain ⟨a1, a2⟩ := count_expand (kv.dedup.map fun v => (v, p - kv.count v)) (by rw [hk]; exact List.nodup_dedup _) v
  rw [hk, List.mem_dedup] at a1
  by_cases hv : v ∈ kv
  · rw [if_pos hv]
    exact a2 _ (List.mem_map.2 ⟨v, List.mem_dedup.2 hv, rfl⟩)
  · rw [if_neg hv]
    exact a1 hv

/-- one more copy of an inner knot -/
def bump (d : Dim K) (x : K) : Dim K := { d with inner := d.inner.map fun g => (g.1, if g.1 = x then g.2 + 1 else g.2) }

theorem bump_keys (d : Dim K) (x : K) : (bump d x).groups.map (·.1) = d.groups.map (·.1) := by
  simp [bump, Dim.groups, Function.comp_def]

theorem bump_valid {tol : K} {d : Dim K} (hv : d.Valid tol) (x : K) : (bump d x).Valid tol where
  degree := hv.degree
  mult := by
    intro g hg
    obtain ⟨g', hg', rfl⟩ := List.mem_map.1 hg
    have := hv.mult g' hg'
    simp only
    split <;> omega
  gap := by rw [bump_keys]; exact hv.gap

theorem count_bump {tol : K} (ht : 0 < tol) {d : Dim K} (hv : d.Valid tol) {x : K} {m : ℕ} (hx : (x, m) ∈ d.inner) (v : K) :
    (bump d x).knots.count v = d.knots.count v + [x].count v := by
  obtain ⟨a1, a2⟩ := count_expand d.groups (groups_nodup ht hv) v
  obtain ⟨b1, b2⟩ := count_expand (bump d x).groups (groups_nodup ht (bump_valid hv x)) v
  change (expand (bump d x).groups).count v = (expand d.groups).count v + _
  have hnd := groups_nodup ht hv
  have hxin : (x, m) ∈ d.groups := by simp [Dim.groups, hx]
  by_cases h : v ∈ d.groups.map (·.1)
  · obtain ⟨⟨v', n⟩, hg, rfl⟩ := List.mem_map.1 h
    simp only at *
    rw [a2 n hg]
    have hg' := hg
    simp only [Dim.groups, List.cons_append, List.mem_cons, List.mem_append, List.mem_nil_iff, or_false] at hg'
    rw [List.count_singleton]
    -- inner knots differ from the ends
    simp only [Dim.groups, List.cons_append, List.map_cons, List.map_append, List.map_nil, List.nodup_cons, List.mem_append, List.mem_singleton, not_or,
      List.nodup_append, List.mem_map] at hnd
    have hxm : ∃ g ∈ d.inner, g.1 = x := ⟨_, hx, rfl⟩
    rcases hg' with hg' | hg' | hg'
    · obtain ⟨rfl, rfl⟩ := Prod.mk.inj hg'
      rw [b2 (d.degree + 1) (by simp [Dim.groups, bump]), if_neg]
      rw [beq_iff_eq]
      rintro rfl
      exact hnd.1.1 hxm
    · have hb := b2 (if v' = x then n + 1 else n) (by
        simp only [Dim.groups, bump, List.cons_append, List.mem_cons, List.mem_append, List.mem_map]
        exact Or.inr (Or.inl ⟨_, hg', rfl⟩))
      rw [hb]
      by_cases hvx : v' = x
      · simp [hvx]
      · simp [hvx, Ne.symm hvx]
    · obtain ⟨rfl, rfl⟩ := Prod.mk.inj hg'
      rw [b2 (d.degree + 1) (by simp [Dim.groups, bump]), if_neg]
      rw [beq_iff_eq]
      rintro rfl
      exact hnd.2.2.2 _ hxm _ rfl rfl
  · rw [a1 h, b1 (by rw [bump_keys]; exact h), List.count_singleton, if_neg]
    rw [beq_iff_eq]
    rintro rfl
    exact h (List.mem_map.2 ⟨_, hxin, rfl⟩)

theorem bump_insertion {tol : K} (ht : 0 < tol) {d : Dim K} (hv : d.Valid tol) {x : K} {m : ℕ} (hx : (x, m) ∈ d.inner) :
    Insertion d.degree d.knots [x] (bump d x).knots tol where
  degree := hv.degree
  sorted_old := expand_sorted (gap_le ht hv.gap)
  sorted_new := expand_sorted (gap_le ht (bump_valid hv x).gap)
  union := by
    rw [List.perm_iff_count]
    intro v
    rw [count_bump ht hv hx, List.count_append]
  length := by have := d.knots_length; omega
  clamped := (Dim.insertion ht hv).clamped
  last_span := (Dim.insertion ht hv).last_span
  inside := by
    intro y hy
    rw [List.mem_singleton] at hy
    subst hy
    rw [d.start_knot _ le_rfl, d.end_knot]
    have hgap := hv.gap
    simp only [Dim.groups, List.cons_append, List.map_cons, List.map_append, List.map_nil, List.pairwise_cons, List.pairwise_append] at hgap
    have hm : y ∈ d.inner.map (·.1) := List.mem_map.2 ⟨_, hx, rfl⟩
    constructor
    · have := hgap.1 y (by simp only [List.mem_append]; exact Or.inl hm); linarith
    · have := hgap.2.2.2 y hm d.last (by simp); linarith
  tol_pos := ht
  separated := by
    intro a ha b hb hab
    refine gap_sep hv.gap (mem_expand ha) ?_ hab
    rcases List.mem_append.1 hb with hb | hb
    · exact mem_expand hb
    · rw [List.mem_singleton] at hb
      subst hb
      exact List.mem_map.2 ⟨(b, m), by simp [Dim.groups, hx], rfl⟩

/-- Valid splines with clamped knot vectors, distinct knots at least the tolerance apart, and control points of one dimension. -/
def Clamped (tol : K) (q : Spline K (List K)) : Prop :=
  ValidSpline q ∧ (∃ ds : List (Dim K), (∀ d ∈ ds, d.Valid tol) ∧ On q ds) ∧ ∃ dim, ∀ P ∈ q.controlPoints, P.length = dim

open Classical in
/-- knot insertion by choice -/
noncomputable def someInsert (tol : K) (q : Spline K (List K)) (axis : ℕ) (x : K) : Option (Spline K (List K)) :=
  if h : ∃ q', Clamped tol q' ∧ Spec.Inserted q q' axis [x] ∧ ∀ dim, (∀ P ∈ q.controlPoints, P.length = dim) → ∀ P ∈ q'.controlPoints, P.length = dim then
    some h.choose else none

/-- The contract of `InsertKnot` can be met for all clamped splines. -/
theorem someInsert_inserts {tol : K} (ht : 0 < tol) : Spec.Inserts (Clamped tol) (someInsert tol) := by
  refine ⟨fun q kvs axis p kv x hq h1 h2 h3 hx hc => ?_⟩
  obtain ⟨hqv, ⟨ds, hv, hon⟩, dim, hdim⟩ := hq
  have h : ∃ q', Clamped tol q' ∧ Spec.Inserted q q' axis [x] ∧ ∀ dim, (∀ P ∈ q.controlPoints, P.length = dim) → ∀ P ∈ q'.controlPoints, P.length = dim := by
    have hk := hon.knots
    rw [h1] at hk
    cases hk
    obtain ⟨d, hd, rfl⟩ : ∃ d, ds[axis]? = some d ∧ d.knots = kv := by simpa [List.getElem?_map] using h3
    have hp : p = d.degree := by
      rw [hon.degrees, List.getElem?_map, hd] at h2
      simpa using h2.symm
    subst hp
    have hdm := List.mem_of_getElem? hd
    have hdv := hv d hdm
    have hcx := count_expand d.groups (groups_nodup ht hdv) x
    obtain ⟨⟨x', m⟩, hg, rfl⟩ := List.mem_map.1 (mem_expand hx)
    have hm := hcx.2 m hg
    simp only at hm hc hx
    change d.knots.count x' = m at hm
    have hin : (x', m) ∈ d.inner := by
      simp only [Dim.groups, List.cons_append, List.mem_cons, List.mem_append, List.mem_nil_iff, or_false] at hg
      rcases hg with hg | hg | hg
      · obtain ⟨rfl, rfl⟩ := Prod.mk.inj hg; omega
      · exact hg
      · obtain ⟨rfl, rfl⟩ := Prod.mk.inj hg; omega
    have hend : knotSeq d.knots (d.knots.length - d.degree - 1) = knotSeq d.knots (d.knots.length - 1) := by
      rw [d.end_knot]
      have hl := d.knots_length
      have hg : d.groups = ((d.first, d.degree + 1) :: d.inner) ++ (d.last, d.degree + 1) :: [] := by simp [Dim.groups]
      symm
      have hs : (((d.first, d.degree + 1) :: d.inner).map (·.2)).sum = (d.inner.map (·.2)).sum + d.degree + 1 := by simp; ring
      conv_lhs => rw [show d.knots = expand d.groups from rfl, hg]
      refine knotSeq_expand _ _ _ _ _ ?_ ?_
      · rw [hs, ← hg]; change _ ≤ d.knots.length - 1; omega
      · rw [hs, ← hg]; change d.knots.length - 1 < _; omega
    have hcp : q.controlPoints ≠ [] := by
      intro he
      have hn := hqv.net
      rw [he, hon.netSize, List.length_nil, eq_comm, List.prod_eq_zero_iff] at hn
      obtain ⟨d, _, hd⟩ := List.mem_map.1 hn
      have := d.knots_length
      unfold Dim.nCps at hd
      omega
    obtain ⟨q', r1, r2, r3⟩ := InsertSpline.exists_inserted q hqv dim hdim _ axis d.degree d.knots (bump d x').knots [x'] h1 h2 h3 (bump_insertion ht hdv hin) hend (by
      intro v hvm
      rw [List.mem_singleton] at hvm
      subst hvm
      simp
      omega)
    refine ⟨q', ⟨r1.valid, ⟨ds.set axis (bump d x'), ?_, ⟨?_, ?_⟩⟩, dim, r3⟩, r1, fun dim' hdim' => ?_⟩
    · intro d' hd'
      rcases List.mem_or_eq_of_mem_set hd' with h | rfl
      · exact hv d' h
      · exact bump_valid hdv x'
    · rw [r1.degrees, hon.degrees]
      apply List.ext_getElem?
      intro i
      rw [List.getElem?_map, List.getElem?_map, List.getElem?_set]
      split
      · next h => subst h; rw [if_pos (List.getElem?_eq_some_iff.1 hd).1, hd]; rfl
      · rfl
    · rw [r2, List.map_set]
    · obtain ⟨P, Ps, e⟩ := List.exists_cons_of_ne_nil hcp
      have a := hdim P (by rw [e]; simp)
      have b := hdim' P (by rw [e]; simp)
      rw [a] at b
      subst b
      exact r3
  refine ⟨h.choose, ?_, h.choose_spec.1, h.choose_spec.2.1, h.choose_spec.2.2⟩
  unfold someInsert
  rw [dif_pos h]

/-- C111 with functions that meet the contracts: a quadratic rational spline with a single inner knot has two rational Bezier patches, whose points are the points of the
spline, left of `1/2` and right of `1/2`. -/
example : ∃ bs, beziers missing (someInsert (1/1000)) runs (⟨[2], some [[0, 0, 0, 1/2, 1, 1, 1]], some [1, 2, 1, 3], [[0, 0], [1, 2], [3, 1], [4, 0]]⟩ : Spline ℚ (List ℚ)) = some bs ∧
    ∃ h : bs.length = 2, (∀ i (h : i < bs.length), bs[i].knotVectors = none ∧ bs[i].weights.isSome = true) ∧ ∀ v, 0 ≤ v → v ≤ 1 → ∀ k,
      point (bs[0]'(by omega)) [v] k = point ⟨[2], some [[0, 0, 0, 1/2, 1, 1, 1]], some [1, 2, 1, 3], [[0, 0], [1, 2], [3, 1], [4, 0]]⟩ [v / 2] k ∧
      point (bs[1]'(by omega)) [v] k = point ⟨[2], some [[0, 0, 0, 1/2, 1, 1, 1]], some [1, 2, 1, 3], [[0, 0], [1, 2], [3, 1], [4, 0]]⟩ [1/2 + v / 2] k := by
  have hval : ValidSpline (⟨[2], some [[0, 0, 0, 1/2, 1, 1, 1]], some [1, 2, 1, 3], [[0, 0], [1, 2], [3, 1], [4, 0]]⟩ : Spline ℚ (List ℚ)) := by
    refine ⟨by rintro kvs ⟨⟩; rfl, ?_, by decide +kernel, by rintro ws ⟨⟩; decide +kernel⟩
    intro d hd
    simp only [directions, List.zipWith_cons_cons, List.zipWith_nil_left, List.mem_singleton] at hd
    subst hd
    rintro kv ⟨⟩
    decide +kernel
  have hon : On (⟨[2], some [[0, 0, 0, 1/2, 1, 1, 1]], some [1, 2, 1, 3], [[0, 0], [1, 2], [3, 1], [4, 0]]⟩ : Spline ℚ (List ℚ)) [⟨2, 0, [(1/2, 1)], 1⟩] := ⟨rfl, by decide +kernel⟩
  have hv : ∀ d ∈ [(⟨2, 0, [(1/2, 1)], 1⟩ : Dim ℚ)], d.Valid (1/1000) := by
    intro d hd
    rw [List.mem_singleton] at hd
    subst hd
    exact ⟨by decide, by decide, by decide +kernel⟩
  obtain ⟨bs, e, el, h, -⟩ := beziers_points (tol := (1/1000 : ℚ)) (by norm_num) missing missing_needed runs (runs_multiplicities (by norm_num)) _ (someInsert (1/1000))
    (someInsert_inserts (by norm_num)) _ hv _ hval ⟨hval, ⟨_, hv, hon⟩, 2, by decide +kernel⟩ hon 2 (by decide +kernel)
  have hl : bs.length = 2 := el
  refine ⟨bs, e, hl, fun i hi => ⟨(h i hi).2.2.1, (h i hi).2.2.2.1⟩, fun v h0 h1 k => ?_⟩
  have hL : ∀ c ≤ 1, Spec.Local [(⟨2, 0, [(1/2, 1)], 1⟩ : Dim ℚ)] [c] [v] := by
    intro c hc
    refine List.Forall₂.cons ⟨h0, ?_⟩ List.Forall₂.nil
    rcases lt_or_eq_of_le h1 with h | h
    · exact Or.inl h
    · refine Or.inr ⟨h, ?_⟩
      rcases (show c = 0 ∨ c = 1 by omega) with rfl | rfl
      · right; decide
      · left; decide
  have a := (((h 0 (by omega)).2.2.2.2.2 [v] (hL 0 (by omega))).2 k)
  have b := (((h 1 (by omega)).2.2.2.2.2 [v] (hL 1 (by omega))).2 k)
  rw [a, b]
  have e1 : Spec.inSpan [(⟨2, 0, [(1/2, 1)], 1⟩ : Dim ℚ)] (digits ([(⟨2, 0, [(1/2, 1)], 1⟩ : Dim ℚ)].map fun d => d.inner.length + 1) 0) [v] = [v / 2] := by
    change [(0 : ℚ) + (1/2 - 0) * v] = _
    congr 1; ring
  have e2 : Spec.inSpan [(⟨2, 0, [(1/2, 1)], 1⟩ : Dim ℚ)] (digits ([(⟨2, 0, [(1/2, 1)], 1⟩ : Dim ℚ)].map fun d => d.inner.length + 1) 1) [v] = [1/2 + v / 2] := by
    change [(1/2 : ℚ) + (1 - 1/2) * v] = _
    congr 1; ring
  rw [e1, e2]
  exact ⟨rfl, rfl⟩

end Splinepy.BezierSpline
