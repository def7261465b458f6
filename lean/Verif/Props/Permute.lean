import Verif.Props.Index
import Verif.Spec.Tensor
import Mathlib.Data.List.Sort
import Mathlib.Data.List.Perm.Basic
import Mathlib.Data.List.Perm.Subperm
import Mathlib.Data.Rat.Defs
import Mathlib.Algebra.Ring.Rat

/-!
C40: permuting parametric axes.
-/
namespace Splinepy.Index
open Splinepy.Spec

/-- What `np.argsort` guarantees: the ids of all entries, ordered such that the entries ascend. -/
def Spec.IsArgsort (a s : List ℕ) : Prop :=
  s.Perm (List.range a.length) ∧ (s.map (fun i => a.getD i 0)).Pairwise (· ≤ ·)

/-- Rearrangement of per-dimension data: entry `i` of the result is entry `perm[i]` of the original. -/
def Spec.pick {α : Type*} (d : α) (perm : List ℕ) (l : List α) : List α := perm.map (fun p => l.getD p d)

/-- A spline with consistent number of entries. -/
structure Spec.Consistent {K P : Type*} (s : Spline K P) : Prop where
  knots : ∀ kvs, s.knotVectors = some kvs → kvs.length = s.degrees.length
  nets : ∀ r ∈ controlMeshResolutions s, 0 < r
  cps : s.controlPoints.length = (controlMeshResolutions s).prod
  weights : ∀ ws, s.weights = some ws → ws.length = (controlMeshResolutions s).prod

theorem cmr_length {K P : Type*} {s : Spline K P} (h : Spec.Consistent s) :
    (controlMeshResolutions s).length = s.degrees.length := by
  unfold controlMeshResolutions
  cases hk : s.knotVectors with
  | none => simp
  | some kvs => simp [h.knots kvs hk]

theorem localIndices_eq (dims : List ℕ) (g : ℕ) : localIndices dims g = digits dims g := by
  induction dims generalizing g with
  | nil => rfl
  | cons r rs ih =>
    simp only [localIndices, digits, ih]
    congr 2
    rcases Nat.eq_zero_or_pos r with h | h
    · subst h; simp
    · have h1 := Nat.div_add_mod g r
      rw [show g - g % r = r * (g / r) by omega, Nat.mul_div_cancel_left _ h]

theorem cumprod_dot (p : ℕ) (ds cs : List ℕ) (h : cs.length = ds.length) :
    (List.zipWith (· * ·) cs (cumprod p ds)).sum = p * flat ds cs := by
  induction ds generalizing p cs with
  | nil => cases cs <;> simp [cumprod, flat]
  | cons d ds ih =>
    cases cs with
    | nil => simp at h
    | cons c cs =>
      simp only [cumprod, List.zipWith_cons_cons, List.sum_cons, flat]
      rw [ih (p * d) cs (by simpa using h)]
      ring

theorem permutedId_eq (dims perm : List ℕ) (g : ℕ) :
    permutedId dims perm g = flat (Spec.pick 0 perm dims) (Spec.pick 0 perm (digits dims g)) := by
  unfold permutedId
  simp only [localIndices_eq]
  rw [cumprod_dot 1 _ _ (by simp), Nat.one_mul]
  rfl

theorem accept_iff (n : ℕ) (perm : List ℕ) :
    (((List.range n).all (fun i => perm.contains i) = true ∧ perm.all (fun p => (List.range n).contains p) = true) ∧
      perm.length = n) ↔ perm.Perm (List.range n) := by
  constructor
  · rintro ⟨⟨h1, h2⟩, h3⟩
    have hsub : (List.range n).Subperm perm := by
      apply List.subperm_of_subset List.nodup_range
      intro i hi
      have := List.all_eq_true.1 h1 i hi
      simpa using this
    exact (hsub.perm_of_length_le (by simp [h3])).symm
  · intro h
    refine ⟨⟨?_, ?_⟩, by simpa using h.length_eq⟩
    · rw [List.all_eq_true]; intro i hi; simpa using h.symm.subset hi
    · rw [List.all_eq_true]; intro i hi; simpa using h.subset hi

/-- C40: a list is accepted exactly if it is a permutation of the axes. -/
theorem permute_accepts_iff {K P : Type*} [Inhabited P] [Inhabited K] (argsort : List ℕ → List ℕ) (perm : List ℕ) (s : Spline K P) :
    (permuteAxes argsort perm s).isSome = true ↔ perm.Perm (List.range s.degrees.length) := by
  rw [← accept_iff]
  unfold permuteAxes
  simp only
  split
  · rename_i h; simp; intro h1 h2; exact absurd ⟨by simpa using h1, by simpa using h2⟩ h
  · rename_i h
    split
    · rename_i h2; simp [h2]
    · rename_i h2; simp only [Option.isSome_some, true_iff]; exact ⟨not_not.1 h, not_not.1 h2⟩

theorem argsort_inverse (n : ℕ) (a s : List ℕ) (ha : a.Perm (List.range n)) (hs : Spec.IsArgsort a s) :
    s.map (fun i => a.getD i 0) = List.range n := by
  have h1 : (s.map (fun i => a.getD i 0)).Perm a := by
    refine (hs.1.map _).trans ?_
    apply List.Perm.of_eq
    apply List.ext_getElem
    · simp
    · intro i h1 h2; simp
      rw [List.getElem?_eq_getElem h2]; rfl
  have h2 := h1.trans ha
  exact h2.eq_of_pairwise (fun a b _ _ h h' => Nat.le_antisymm h h') hs.2 (List.pairwise_le_range)

theorem pick_inGrid {perm dims cs : List ℕ} (hp : perm.Perm (List.range dims.length)) (h : InGrid dims cs) :
    InGrid (Spec.pick 0 perm dims) (Spec.pick 0 perm cs) := by
  rw [inGrid_iff] at h
  obtain ⟨hl, h⟩ := h
  rw [inGrid_iff]
  refine ⟨by simp [Spec.pick], fun d hd => ?_⟩
  simp only [Spec.pick, List.length_map] at hd
  have hm : perm[d] < dims.length := by
    have := hp.subset (List.getElem_mem hd); simpa using this
  simp only [Spec.pick, List.getElem_map, List.getD_eq_getElem?_getD]
  rw [List.getElem?_eq_getElem hm, List.getElem?_eq_getElem (by omega)]
  exact h _ hm

theorem pick_prod {perm dims : List ℕ} (hp : perm.Perm (List.range dims.length)) :
    (Spec.pick 0 perm dims).prod = dims.prod := by
  have h1 : (Spec.pick 0 perm dims).Perm dims := by
    refine (hp.map _).trans ?_
    apply List.Perm.of_eq
    apply List.ext_getElem
    · simp
    · intro i h1 h2; simp
      rw [List.getElem?_eq_getElem h2]; rfl
  exact h1.prod_eq

theorem pick_inj {perm : List ℕ} {cs cs' : List ℕ} (hp : perm.Perm (List.range cs.length)) (hl : cs.length = cs'.length)
    (h : Spec.pick 0 perm cs = Spec.pick 0 perm cs') : cs = cs' := by
  apply List.ext_getElem hl
  intro i h1 h2
  have hi : i ∈ perm := hp.symm.subset (by simpa using h1)
  unfold Spec.pick at h
  have := List.map_inj_left.1 h i hi
  rwa [List.getD_eq_getElem?_getD, List.getD_eq_getElem?_getD, List.getElem?_eq_getElem h1,
    List.getElem?_eq_getElem h2] at this

theorem permutedId_perm {perm dims : List ℕ} (hp : perm.Perm (List.range dims.length)) (hpos : ∀ r ∈ dims, 0 < r) :
    ((List.range dims.prod).map (permutedId dims perm)).Perm (List.range dims.prod) := by
  have hinj : ∀ x ∈ List.range dims.prod, ∀ y ∈ List.range dims.prod,
      permutedId dims perm x = permutedId dims perm y → x = y := by
    intro x hx y hy he
    rw [permutedId_eq, permutedId_eq] at he
    have h1 := flat_inj _ _ _ (pick_inGrid hp (digits_inGrid dims x hpos)) (pick_inGrid hp (digits_inGrid dims y hpos)) he
    have h2 := pick_inj (by rw [digits_length]; exact hp) (by simp [digits_length]) h1
    exact digits_inj _ _ _ (by simpa using hx) (by simpa using hy) h2
  have hnd : ((List.range dims.prod).map (permutedId dims perm)).Nodup :=
    List.Nodup.map_on hinj List.nodup_range
  have hsub : ((List.range dims.prod).map (permutedId dims perm)).Subperm (List.range dims.prod) := by
    apply List.subperm_of_subset hnd
    intro k hk
    obtain ⟨g, _, rfl⟩ := List.mem_map.1 hk
    rw [permutedId_eq, List.mem_range]
    have := flat_lt _ _ (pick_inGrid hp (digits_inGrid dims g hpos))
    rwa [pick_prod hp] at this
  exact hsub.perm_of_length_le (by simp)

/-- facts about the order used for control points and weights -/
theorem order_facts {argsort : List ℕ → List ℕ} (hsort : ∀ a, Spec.IsArgsort a (argsort a)) {perm dims : List ℕ}
    (hp : perm.Perm (List.range dims.length)) (hpos : ∀ r ∈ dims, 0 < r) :
    let order := argsort ((List.range dims.prod).map (permutedId dims perm))
    order.Perm (List.range dims.prod) ∧
    order.map (permutedId dims perm) = List.range dims.prod := by
  intro order
  have h1 := hsort ((List.range dims.prod).map (permutedId dims perm))
  have h2 := argsort_inverse _ _ _ (permutedId_perm hp hpos) h1
  have h3 : order.Perm (List.range dims.prod) := by simpa using h1.1
  refine ⟨h3, ?_⟩
  rw [← h2]
  apply List.map_congr_left
  intro i hi
  have : i < dims.prod := by simpa using h3.subset hi
  simp [List.getElem?_range this]

theorem order_get {argsort : List ℕ → List ℕ} (hsort : ∀ a, Spec.IsArgsort a (argsort a)) {perm dims : List ℕ}
    (hp : perm.Perm (List.range dims.length)) (hpos : ∀ r ∈ dims, 0 < r) (cs : List ℕ) (hcs : InGrid dims cs) :
    (argsort ((List.range dims.prod).map (permutedId dims perm)))[flat (Spec.pick 0 perm dims) (Spec.pick 0 perm cs)]? =
      some (flat dims cs) := by
  obtain ⟨h1, h2⟩ := order_facts hsort hp hpos
  set order := argsort ((List.range dims.prod).map (permutedId dims perm)) with ho
  have hk : flat (Spec.pick 0 perm dims) (Spec.pick 0 perm cs) < order.length := by
    have := flat_lt _ _ (pick_inGrid hp hcs)
    rw [pick_prod hp] at this
    rw [h1.length_eq]; simpa using this
  rw [List.getElem?_eq_getElem hk]
  set k := flat (Spec.pick 0 perm dims) (Spec.pick 0 perm cs) with hkd
  have h3 := congrArg (fun l : List ℕ => l[k]?) h2
  simp only [List.getElem?_map, List.getElem?_eq_getElem hk, Option.map_some] at h3
  rw [List.getElem?_range (by rw [h1.length_eq] at hk; simpa using hk)] at h3
  simp only [Option.some.injEq] at h3
  rw [permutedId_eq] at h3
  replace h3 := h3.trans hkd
  have hlt : order[k] < dims.prod := by simpa using h1.subset (List.getElem_mem hk)
  have h4 := flat_inj _ _ _ (pick_inGrid hp (digits_inGrid dims _ hpos)) (pick_inGrid hp hcs) h3
  have h5 := pick_inj (by rw [digits_length]; exact hp) (by rw [digits_length, inGrid_length hcs]) h4
  have h6 : flat dims cs = order[k] := by rw [← h5, flat_digits _ _ hlt]
  rw [h6]

/-- C40: data of the permuted spline. Degrees, knot vectors and net shape are rearranged; the control point (and weight) at the rearranged
coordinates is the original one. -/
theorem permute_spec {K P : Type*} [Inhabited P] [Inhabited K] (argsort : List ℕ → List ℕ) (hsort : ∀ a, Spec.IsArgsort a (argsort a))
    (perm : List ℕ) (s : Spline K P) (hs : Spec.Consistent s) (hp : perm.Perm (List.range s.degrees.length)) :
    ∃ t, permuteAxes argsort perm s = some t ∧
      t.degrees = Spec.pick 0 perm s.degrees ∧
      t.knotVectors = s.knotVectors.map (Spec.pick [] perm) ∧
      controlMeshResolutions t = Spec.pick 0 perm (controlMeshResolutions s) ∧
      t.controlPoints.length = s.controlPoints.length ∧
      (∀ cs, InGrid (controlMeshResolutions s) cs →
        t.controlPoints[flat (controlMeshResolutions t) (Spec.pick 0 perm cs)]? =
          s.controlPoints[flat (controlMeshResolutions s) cs]?) ∧
      (t.weights.isSome = s.weights.isSome) ∧
      (∀ ws, s.weights = some ws → ∃ wt, t.weights = some wt ∧ wt.length = ws.length ∧
        ∀ cs, InGrid (controlMeshResolutions s) cs →
          wt[flat (controlMeshResolutions t) (Spec.pick 0 perm cs)]? = ws[flat (controlMeshResolutions s) cs]?) := by
  have hacc := (accept_iff s.degrees.length perm).2 hp
  have hp' : perm.Perm (List.range (controlMeshResolutions s).length) := by rw [cmr_length hs]; exact hp
  obtain ⟨ho1, ho2⟩ := order_facts hsort hp' hs.nets
  set order := argsort ((List.range (controlMeshResolutions s).prod).map (permutedId (controlMeshResolutions s) perm)) with hod
  have hget := order_get hsort hp' hs.nets
  have heq : permuteAxes argsort perm s = some
      { degrees := Spec.pick 0 perm s.degrees
        knotVectors := s.knotVectors.map (Spec.pick [] perm)
        weights := s.weights.map (fun ws => order.map (fun i => ws.getD i default))
        controlPoints := order.map (fun i => s.controlPoints.getD i default) } := by
    unfold permuteAxes
    simp only
    rw [if_neg (not_not.2 hacc.1), if_neg (not_not.2 hacc.2), hod, ← hs.cps]
    rfl
  have hcmr : controlMeshResolutions (K := K) (P := P)
      { degrees := Spec.pick 0 perm s.degrees
        knotVectors := s.knotVectors.map (Spec.pick [] perm)
        weights := s.weights.map (fun ws => order.map (fun i => ws.getD i default))
        controlPoints := order.map (fun i => s.controlPoints.getD i default) } =
      Spec.pick 0 perm (controlMeshResolutions s) := by
    unfold controlMeshResolutions
    have hlt : ∀ p ∈ perm, p < s.degrees.length := fun p hp2 => by simpa using hp.subset hp2
    cases hk : s.knotVectors with
    | none =>
      simp only [Option.map_none, Spec.pick, List.map_map]
      apply List.map_congr_left
      intro p hp2
      simp [List.getElem?_eq_getElem (hlt p hp2)]
    | some kvs =>
      simp only [Option.map_some, Spec.pick]
      rw [List.zipWith_map, List.zipWith_self]
      apply List.map_congr_left
      intro p hp2
      have h1 := hlt p hp2
      have h2 : p < kvs.length := by rw [hs.knots kvs hk]; exact h1
      simp [List.getElem?_zipWith, List.getElem?_eq_getElem h1, List.getElem?_eq_getElem h2]
  have hpt : ∀ {Q : Type _} [Inhabited Q] (l : List Q), l.length = (controlMeshResolutions s).prod →
      ∀ cs, InGrid (controlMeshResolutions s) cs →
        (order.map (fun i => l.getD i default))[flat (Spec.pick 0 perm (controlMeshResolutions s)) (Spec.pick 0 perm cs)]? =
          l[flat (controlMeshResolutions s) cs]? := by
    intro Q _ l hl cs hcs
    rw [List.getElem?_map, hget cs hcs, Option.map_some, List.getD_eq_getElem?_getD,
      List.getElem?_eq_getElem (by rw [hl]; exact flat_lt _ _ hcs)]
    rfl
  refine ⟨_, heq, rfl, rfl, hcmr, ?_, ?_, ?_, ?_⟩
  · simp [ho1.length_eq, hs.cps]
  · intro cs hcs
    rw [hcmr]
    exact hpt _ hs.cps cs hcs
  · simp
  · intro ws hw
    refine ⟨order.map (fun i => ws.getD i default), by simp [hw], by simp [ho1.length_eq, hs.weights ws hw], ?_⟩
    intro cs hcs
    rw [hcmr]
    have hpw : ∀ (l : List K), l.length = (controlMeshResolutions s).prod →
        ∀ cs, InGrid (controlMeshResolutions s) cs →
          (order.map (fun i => l.getD i default))[flat (Spec.pick 0 perm (controlMeshResolutions s)) (Spec.pick 0 perm cs)]? =
            l[flat (controlMeshResolutions s) cs]? := by
      intro l hl cs hcs
      rw [List.getElem?_map, hget cs hcs, Option.map_some, List.getD_eq_getElem?_getD,
        List.getElem?_eq_getElem (by rw [hl]; exact flat_lt _ _ hcs)]
      rfl
    exact hpw ws (hs.weights ws hw) cs hcs

/-- composition of rearrangements -/
theorem pick_pick {α : Type*} (d : α) (p q : List ℕ) (l : List α) (hq : ∀ i ∈ q, i < p.length) :
    Spec.pick d q (Spec.pick d p l) = Spec.pick d (Spec.pick 0 q p) l := by
  unfold Spec.pick
  rw [List.map_map]
  apply List.map_congr_left
  intro i hi
  simp [List.getElem?_eq_getElem (hq i hi)]

theorem pick_range {α : Type*} (d : α) (l : List α) : Spec.pick d (List.range l.length) l = l := by
  apply List.ext_getElem
  · simp [Spec.pick]
  · intro i h1 h2; simp [Spec.pick]; rw [List.getElem?_eq_getElem h2]; rfl

theorem pick_perm {α : Type*} (d : α) {p : List ℕ} {l : List α} (hp : p.Perm (List.range l.length)) :
    (Spec.pick d p l).Perm l := by
  have := (hp.map (fun i => l.getD i d))
  have h2 := pick_range d l
  unfold Spec.pick at *
  rw [h2] at this
  exact this

/-- two lists that agree at all grid coordinates are equal -/
theorem eq_of_grid {α : Type*} (dims : List ℕ) (hpos : ∀ r ∈ dims, 0 < r) (perm : List ℕ)
    (hp : perm.Perm (List.range dims.length)) (A B : List α) (hA : A.length = dims.prod) (hB : B.length = dims.prod)
    (h : ∀ cs, InGrid dims cs → A[flat (Spec.pick 0 perm dims) (Spec.pick 0 perm cs)]? =
      B[flat (Spec.pick 0 perm dims) (Spec.pick 0 perm cs)]?) : A = B := by
  apply List.ext_getElem?
  intro k
  by_cases hk : k < dims.prod
  · have hm : k ∈ (List.range dims.prod).map (permutedId dims perm) :=
      (permutedId_perm hp hpos).symm.subset (by simpa using hk)
    obtain ⟨g, _, rfl⟩ := List.mem_map.1 hm
    rw [permutedId_eq]
    exact h _ (digits_inGrid dims g hpos)
  · rw [List.getElem?_eq_none (by omega), List.getElem?_eq_none (by omega)]

/-- the permuted spline is consistent again -/
theorem permute_consistent {K P : Type*} [Inhabited P] [Inhabited K] (argsort : List ℕ → List ℕ)
    (hsort : ∀ a, Spec.IsArgsort a (argsort a)) (perm : List ℕ) (s t : Spline K P) (hs : Spec.Consistent s)
    (ht : permuteAxes argsort perm s = some t) : Spec.Consistent t := by
  have hp := (permute_accepts_iff argsort perm s).1 (by rw [ht]; rfl)
  obtain ⟨t', h1, h2, h3, h4, h5, _, h7, h8⟩ := permute_spec argsort hsort perm s hs hp
  rw [ht] at h1
  simp only [Option.some.injEq] at h1
  subst h1
  have hp' : perm.Perm (List.range (controlMeshResolutions s).length) := by rw [cmr_length hs]; exact hp
  refine ⟨?_, ?_, ?_, ?_⟩
  · intro kvs hk
    rw [h3] at hk
    cases hsk : s.knotVectors with
    | none => rw [hsk] at hk; simp at hk
    | some k =>
      rw [hsk] at hk; simp only [Option.map_some, Option.some.injEq] at hk
      rw [← hk, h2]; simp [Spec.pick]
  · intro r hr
    rw [h4] at hr
    exact hs.nets r ((pick_perm 0 hp').subset hr)
  · rw [h5, h4, pick_prod hp', hs.cps]
  · intro wt hw
    cases hsw : s.weights with
    | none => rw [hw, hsw] at h7; simp at h7
    | some ws =>
      obtain ⟨wt', e1, e2, _⟩ := h8 ws hsw
      rw [hw] at e1; simp only [Option.some.injEq] at e1
      rw [e1, e2, h4, pick_prod hp', hs.weights ws hsw]

/-- C40: permuting by `p` and then by `q` is permuting by the composed list. -/
theorem permute_comp {K P : Type*} [Inhabited P] [Inhabited K] (argsort : List ℕ → List ℕ)
    (hsort : ∀ a, Spec.IsArgsort a (argsort a)) (p q : List ℕ) (s : Spline K P) (hs : Spec.Consistent s)
    (hp : p.Perm (List.range s.degrees.length)) (hq : q.Perm (List.range s.degrees.length)) :
    (permuteAxes argsort p s).bind (permuteAxes argsort q) = permuteAxes argsort (Spec.pick 0 q p) s := by
  obtain ⟨t, ht, t2, t3, t4, t5, t6, t7, t8⟩ := permute_spec argsort hsort p s hs hp
  have htc := permute_consistent argsort hsort p s t hs ht
  have hpl : p.length = s.degrees.length := by simpa using hp.length_eq
  have htl : t.degrees.length = s.degrees.length := by rw [t2]; simp [Spec.pick, hpl]
  obtain ⟨u, hu, u2, u3, u4, u5, u6, u7, u8⟩ := permute_spec argsort hsort q t htc (by rw [htl]; exact hq)
  have hqp : (Spec.pick 0 q p).Perm (List.range s.degrees.length) :=
    (pick_perm 0 (by rw [hpl]; exact hq)).trans hp
  obtain ⟨v, hv, v2, v3, v4, v5, v6, v7, v8⟩ := permute_spec argsort hsort _ s hs hqp
  have hqlt : ∀ i ∈ q, i < p.length := fun i hi => by rw [hpl]; simpa using hq.subset hi
  have hcl := cmr_length hs
  have hp' : p.Perm (List.range (controlMeshResolutions s).length) := by rw [hcl]; exact hp
  have hqp' : (Spec.pick 0 q p).Perm (List.range (controlMeshResolutions s).length) := by rw [hcl]; exact hqp
  rw [ht, Option.bind_some, hu, hv]
  have hdims : controlMeshResolutions u = Spec.pick 0 (Spec.pick 0 q p) (controlMeshResolutions s) := by
    rw [u4, t4, pick_pick _ _ _ _ hqlt]
  have hdv : controlMeshResolutions u = controlMeshResolutions v := by rw [hdims, v4]
  have hgt : ∀ cs, InGrid (controlMeshResolutions s) cs → InGrid (controlMeshResolutions t) (Spec.pick 0 p cs) := by
    intro cs hcs; rw [t4]; exact pick_inGrid hp' hcs
  have e1 : u.degrees = v.degrees := by rw [u2, t2, v2, pick_pick _ _ _ _ hqlt]
  have e2 : u.knotVectors = v.knotVectors := by
    rw [u3, t3, v3, Option.map_map]
    congr 1
    funext k
    exact pick_pick _ _ _ _ hqlt
  have e3 : u.controlPoints = v.controlPoints := by
    apply eq_of_grid _ hs.nets _ hqp' _ _ (by rw [u5, t5, hs.cps]) (by rw [v5, hs.cps])
    intro cs hcs
    have h1 := v6 cs hcs
    have h2 := u6 _ (hgt cs hcs)
    rw [t6 cs hcs, pick_pick _ _ _ _ hqlt, hdims] at h2
    rw [v4] at h1
    rw [h1, h2]
  have e4 : u.weights = v.weights := by
    cases hw : s.weights with
    | none =>
      have a : t.weights = none := by simpa [hw] using t7
      have b : u.weights = none := by simpa [a] using u7
      have c : v.weights = none := by simpa [hw] using v7
      rw [b, c]
    | some ws =>
      obtain ⟨wt, a1, a2, a3⟩ := t8 ws hw
      obtain ⟨wu, b1, b2, b3⟩ := u8 wt a1
      obtain ⟨wv, c1, c2, c3⟩ := v8 ws hw
      rw [b1, c1]
      congr 1
      apply eq_of_grid _ hs.nets _ hqp' _ _ (by rw [b2, a2, hs.weights ws hw]) (by rw [c2, hs.weights ws hw])
      intro cs hcs
      have h1 := c3 cs hcs
      have h2 := b3 _ (hgt cs hcs)
      rw [a3 cs hcs, pick_pick _ _ _ _ hqlt, hdims] at h2
      rw [v4] at h1
      rw [h1, h2]
  congr 1
  cases u; cases v
  simp_all

/-- C40: the identity list changes nothing. -/
theorem permute_id {K P : Type*} [Inhabited P] [Inhabited K] (argsort : List ℕ → List ℕ)
    (hsort : ∀ a, Spec.IsArgsort a (argsort a)) (s : Spline K P) (hs : Spec.Consistent s) :
    permuteAxes argsort (List.range s.degrees.length) s = some s := by
  obtain ⟨t, ht, t2, t3, t4, t5, t6, t7, t8⟩ := permute_spec argsort hsort _ s hs (List.Perm.refl _)
  have hcl := cmr_length hs
  have hd : Spec.pick 0 (List.range s.degrees.length) (controlMeshResolutions s) = controlMeshResolutions s := by
    rw [← hcl]; exact pick_range _ _
  have hcs' : ∀ cs, InGrid (controlMeshResolutions s) cs → Spec.pick 0 (List.range s.degrees.length) cs = cs := by
    intro cs h; rw [← hcl, inGrid_length h]; exact pick_range _ _
  have hp' : (List.range s.degrees.length).Perm (List.range (controlMeshResolutions s).length) := by rw [hcl]
  rw [ht]
  congr 1
  have e1 : t.degrees = s.degrees := by rw [t2, pick_range]
  have e2 : t.knotVectors = s.knotVectors := by
    rw [t3]
    cases hk : s.knotVectors with
    | none => rfl
    | some k => simp only [Option.map_some]; rw [← hs.knots k hk, pick_range]
  have e3 : t.controlPoints = s.controlPoints := by
    apply eq_of_grid _ hs.nets _ hp' _ _ (by rw [t5, hs.cps]) hs.cps
    intro cs hcs
    have := t6 cs hcs
    rw [t4] at this
    rw [this, hd, hcs' cs hcs]
  have e4 : t.weights = s.weights := by
    cases hw : s.weights with
    | none => simpa [hw] using t7
    | some ws =>
      obtain ⟨wt, a1, a2, a3⟩ := t8 ws hw
      rw [a1]
      congr 1
      apply eq_of_grid _ hs.nets _ hp' _ _ (by rw [a2, hs.weights ws hw]) (hs.weights ws hw)
      intro cs hcs
      have := a3 cs hcs
      rw [t4] at this
      rw [this, hd, hcs' cs hcs]
  cases t; cases s
  simp_all

/-- C40: permuting with the inverse list restores the spline. -/
theorem permute_inverse {K P : Type*} [Inhabited P] [Inhabited K] (argsort : List ℕ → List ℕ)
    (hsort : ∀ a, Spec.IsArgsort a (argsort a)) (p q : List ℕ) (s : Spline K P) (hs : Spec.Consistent s)
    (hp : p.Perm (List.range s.degrees.length)) (hq : q.Perm (List.range s.degrees.length))
    (hinv : Spec.pick 0 q p = List.range s.degrees.length) :
    (permuteAxes argsort p s).bind (permuteAxes argsort q) = some s := by
  rw [permute_comp argsort hsort p q s hs hp hq, hinv, permute_id argsort hsort s hs]

/-- C40: the permuted spline is the same map with renamed parameters: evaluated with the rearranged univariate basis values it gives the
same result, whatever the basis values are. -/
theorem permute_evaluates_same {K : Type*} [CommSemiring K] [Inhabited K] (argsort : List ℕ → List ℕ)
    (hsort : ∀ a, Spec.IsArgsort a (argsort a)) (perm : List ℕ) (s t : Spline K K) (hs : Spec.Consistent s)
    (ht : permuteAxes argsort perm s = some t) (basis : List (ℕ → K)) (hb : basis.length = s.degrees.length) :
    tensorEval (Spec.pick (fun _ => 0) perm basis) (controlMeshResolutions t) t.controlPoints =
      tensorEval basis (controlMeshResolutions s) s.controlPoints := by
  have hp := (permute_accepts_iff argsort perm s).1 (by rw [ht]; rfl)
  obtain ⟨t', h1, h2, h3, h4, h5, h6, _, _⟩ := permute_spec argsort hsort perm s hs hp
  rw [ht] at h1
  simp only [Option.some.injEq] at h1
  subst h1
  set dims := controlMeshResolutions s with hdims
  have hcl : dims.length = s.degrees.length := cmr_length hs
  have hp' : perm.Perm (List.range dims.length) := by rw [hcl]; exact hp
  unfold tensorEval
  rw [h4, pick_prod hp']
  have key := permutedId_perm hp' hs.nets
  rw [← (key.map _).sum_eq, List.map_map]
  congr 1
  apply List.map_congr_left
  intro g hg
  have hg' : g < dims.prod := by simpa using hg
  simp only [Function.comp]
  have hgrid := pick_inGrid hp' (digits_inGrid dims g hs.nets)
  rw [permutedId_eq, digits_flat _ _ hgrid]
  have e1 := h6 _ (digits_inGrid dims g hs.nets)
  rw [h4, flat_digits _ _ hg'] at e1
  rw [List.getD_eq_getElem?_getD, e1, ← List.getD_eq_getElem?_getD]
  congr 1
  unfold basisProduct
  have hperm2 : (List.zipWith (fun b c => b c) (Spec.pick (fun _ => 0) perm basis) (Spec.pick 0 perm (digits dims g))).Perm
      (List.zipWith (fun b c => b c) basis (digits dims g)) := by
    have hb' : basis.length = dims.length := by rw [hb, hcl]
    have e2 : List.zipWith (fun b c => b c) (Spec.pick (fun _ => 0) perm basis) (Spec.pick 0 perm (digits dims g)) =
        Spec.pick 0 perm (List.zipWith (fun b c => b c) basis (digits dims g)) := by
      unfold Spec.pick
      rw [List.zipWith_map, List.zipWith_self]
      apply List.map_congr_left
      intro i hi
      have hi' : i < dims.length := by simpa using hp'.subset hi
      simp [List.getElem?_zipWith, List.getElem?_eq_getElem (show i < basis.length by omega),
        List.getElem?_eq_getElem (show i < (digits dims g).length by rw [digits_length]; exact hi')]
    rw [e2]
    apply pick_perm
    simpa [digits_length, hb'] using hp'
  exact hperm2.prod_eq

/-- an argsort exists: the hypothesis on `argsort` is satisfiable -/
theorem argsort_exists (a : List ℕ) :
    Spec.IsArgsort a ((List.range a.length).mergeSort (fun i j => a.getD i 0 ≤ a.getD j 0)) := by
  refine ⟨List.mergeSort_perm _ _, ?_⟩
  rw [List.pairwise_map]
  have := List.pairwise_mergeSort (le := fun i j => decide (a.getD i 0 ≤ a.getD j 0))
    (by intro x y z h1 h2; simp at *; omega) (by intro x y; simp; omega) (List.range a.length)
  exact this.imp (by intro x y h; simpa using h)

/-- a concrete consistent spline of two different dimensions and its permutation -/
def exampleSpline : Spline ℚ ℤ :=
  { degrees := [1, 2], knotVectors := some [[0, 0, 1, 1], [0, 0, 0, 1, 1, 1]], weights := none, controlPoints := [0, 1, 10, 11, 20, 21] }

example : Spec.Consistent exampleSpline ∧ [1, 0].Perm (List.range 2) ∧
    (permuteAxes (fun _ => [0, 2, 4, 1, 3, 5]) [1, 0] exampleSpline).map (·.controlPoints) = some [0, 10, 20, 1, 11, 21] ∧
    Spec.IsArgsort ((List.range 6).map (permutedId [2, 3] [1, 0])) [0, 2, 4, 1, 3, 5] := by
  refine ⟨⟨?_, by decide, by decide, ?_⟩, by decide, by decide, by constructor <;> decide⟩
  · intro kvs h; simp [exampleSpline] at h; subst h; rfl
  · intro ws h; simp [exampleSpline] at h

end Splinepy.Index
