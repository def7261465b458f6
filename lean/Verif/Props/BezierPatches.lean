import Verif.Lemma.BezierPatches

/-!
C05: control point ids of the Bezier patches.
-/
namespace Splinepy.BezierPatches
open Splinepy.Spec

/-- One parametric dimension of a clamped spline: knot multiplicities `m` (at least two distinct knots; both end knots have multiplicity
`degree + 1`). -/
structure Spec.Clamped (m : List ℕ) (deg : ℕ) : Prop where
  two : 2 ≤ m.length
  first : m[0]? = some (deg + 1)
  last : m[m.length - 1]? = some (deg + 1)

/-- Number of control points of this dimension: number of knots - degree - 1. -/
def Spec.nCps (m : List ℕ) (deg : ℕ) : ℕ := m.sum - (deg + 1)

/-- First control point with influence on the knot span number `c`: the position of the last knot before the span, minus the degree. -/
def Spec.start (m : List ℕ) (deg c : ℕ) : ℕ := ((m.take (c + 1)).sum - 1) - deg

theorem take_sum (m : List ℕ) (c : ℕ) (h : c < m.length) :
    (m.take (c + 1)).sum = m.getD 0 0 + innerSum m c := by
  induction c with
  | zero =>
    obtain ⟨a, l, rfl⟩ : ∃ a l, m = a :: l := by
      cases m with
      | nil => simp at h
      | cons a l => exact ⟨a, l, rfl⟩
    simp [innerSum]
  | succ c ih =>
    rw [innerSum_succ, List.take_add_one, List.sum_append, ih (by omega), List.getElem?_eq_getElem h,
      List.getD_eq_getElem?_getD, List.getD_eq_getElem?_getD, List.getElem?_eq_getElem h]
    simp [Nat.add_assoc]

theorem start_eq {m : List ℕ} {deg : ℕ} (hc : Spec.Clamped m deg) {c : ℕ} (h : c < m.length) :
    Spec.start m deg c = innerSum m c := by
  unfold Spec.start
  rw [take_sum m c h, List.getD_eq_getElem?_getD, hc.first]
  simp

theorem start_add_lt {m : List ℕ} {deg : ℕ} (hc : Spec.Clamped m deg) {c l : ℕ} (h : c < m.length - 1) (hl : l < deg + 1) :
    l + innerSum m c < controlMeshResolution m deg := by
  have h1 := innerSum_le m c (by omega)
  rw [List.getD_eq_getElem?_getD, List.getD_eq_getElem?_getD, hc.first, hc.last] at h1
  simp only [Option.getD_some] at h1
  unfold controlMeshResolution
  omega

/-- the block of one patch, dimension by dimension -/
theorem block_inGrid (mults : List (List ℕ)) (degrees : List ℕ) (hcl : List.Forall₂ Spec.Clamped mults degrees)
    (x l : ℕ) :
    let ds := List.zip degrees (List.zip ((stateOf mults x).map (·.2)) (List.zipWith controlMeshResolution mults degrees))
    ds.map (·.2.2) = List.zipWith Spec.nCps mults degrees ∧
    ds.map (·.1 + 1) = degrees.map (· + 1) ∧
    List.zipWith (fun d c => c + d.2.1) ds (digits (ds.map (·.1 + 1)) l) =
      List.zipWith (· + ·) (digits (degrees.map (· + 1)) l)
        (List.zipWith (fun f c => f c) (List.zipWith Spec.start mults degrees) (digits (mults.map (fun m => m.length - 1)) x)) ∧
    InGrid (List.zipWith Spec.nCps mults degrees)
      (List.zipWith (fun d c => c + d.2.1) ds (digits (ds.map (·.1 + 1)) l)) := by
  induction hcl generalizing x l with
  | nil => simp [digits, InGrid]
  | @cons m deg mults degrees hc _ ih =>
    obtain ⟨i1, i2, i3, i4⟩ := ih (x / (m.length - 1)) (l / (deg + 1))
    have h2 := hc.two
    have hx : x % (m.length - 1) < m.length - 1 := Nat.mod_lt _ (by omega)
    have hlt := start_add_lt hc hx (Nat.mod_lt l (show 0 < deg + 1 by omega))
    have hst := start_eq hc (c := x % (m.length - 1)) (by omega)
    simp only [stateOf, patchRes] at *
    simp only [List.map_cons, digits, List.zipWith_cons_cons, List.zip_cons_cons]
    refine ⟨?_, ?_, ?_, ?_⟩
    · rw [i1]; congr 1
    · rw [i2]
    · rw [i3, hst]
    · refine List.Forall₂.cons ?_ i4
      unfold controlMeshResolution at hlt
      unfold Spec.nCps
      omega

/-- C05: there is one id list per combination of knot spans (`x` numbers them with the first dimension running fastest), and the `l`-th
id of patch `x` is the control point whose index in every dimension is the first active control point of the span
plus the local index. In particular all ids exist. -/
theorem bezier_patch_ids (mults : List (List ℕ)) (degrees : List ℕ) (hcl : List.Forall₂ Spec.Clamped mults degrees) :
    let spans := mults.map (fun m => m.length - 1)
    let res := List.zipWith Spec.nCps mults degrees
    let loc := degrees.map (· + 1)
    (extractBezierPatchIDs mults degrees).length = spans.prod ∧
    ∀ x (hx : x < (extractBezierPatchIDs mults degrees).length),
      ((extractBezierPatchIDs mults degrees)[x]).length = loc.prod ∧
      ∀ l (hl : l < ((extractBezierPatchIDs mults degrees)[x]).length),
        (extractBezierPatchIDs mults degrees)[x][l] < res.prod ∧
        digits res ((extractBezierPatchIDs mults degrees)[x][l]) =
          List.zipWith (· + ·) (digits loc l)
            (List.zipWith (fun f c => f c) (List.zipWith Spec.start mults degrees) (digits spans x)) := by
  intro spans res loc
  have hpos : ∀ m ∈ mults, 0 < m.length - 1 := by
    intro m hm
    obtain ⟨i, hi, rfl⟩ := List.getElem_of_mem hm
    have := ((List.forall₂_iff_get.1 hcl).2 i hi (by rw [← hcl.length_eq]; exact hi)).two
    simp only [List.get_eq_getElem] at this
    omega
  have hlen : (extractBezierPatchIDs mults degrees).length = spans.prod := by
    simp only [extractBezierPatchIDs, List.length_map, List.length_range]
    rw [foldl_prod' mults (fun m => m.length - 1) 1, Nat.one_mul]
  refine ⟨hlen, fun x hx => ?_⟩
  have hpatch : (extractBezierPatchIDs mults degrees)[x] = patchIds mults degrees (stateOf mults x) := by
    simp only [extractBezierPatchIDs, List.getElem_map, List.getElem_range]
    rw [stateAt_eq mults x hpos]
  have hplen : (patchIds mults degrees (stateOf mults x)).length = loc.prod := by
    simp only [patchIds, List.length_map, List.length_range]
    rw [foldl_prod degrees (fun d => d + 1) 1, Nat.one_mul]
  refine ⟨by rw [hpatch, hplen], fun l hl => ?_⟩
  obtain ⟨b1, b2, b3, b4⟩ := block_inGrid mults degrees hcl x l
  have hid : (extractBezierPatchIDs mults degrees)[x][l] =
      flat res (List.zipWith (fun d c => c + d.2.1)
        (List.zip degrees (List.zip ((stateOf mults x).map (·.2)) (List.zipWith controlMeshResolution mults degrees)))
        (digits ((List.zip degrees (List.zip ((stateOf mults x).map (·.2))
          (List.zipWith controlMeshResolution mults degrees))).map (·.1 + 1)) l)) := by
    simp only [hpatch, patchIds, List.getElem_map, List.getElem_range]
    rw [globalIdGo_eq, b1]
    simp [res]
  rw [hid]
  exact ⟨flat_lt _ _ b4, by rw [digits_flat _ _ b4, b3]⟩

/-- C05: no control point occurs twice in the same patch. -/
theorem bezier_patch_ids_nodup (mults : List (List ℕ)) (degrees : List ℕ) (hcl : List.Forall₂ Spec.Clamped mults degrees) :
    ∀ ids ∈ extractBezierPatchIDs mults degrees, ids.Nodup := by
  intro ids hids
  obtain ⟨x, hx, rfl⟩ := List.getElem_of_mem hids
  obtain ⟨_, h⟩ := bezier_patch_ids mults degrees hcl
  obtain ⟨h1, h2⟩ := h x hx
  rw [List.nodup_iff_injective_getElem]
  rintro ⟨i, hi⟩ ⟨j, hj⟩ hij
  simp only at hij
  obtain ⟨_, e1⟩ := h2 i hi
  obtain ⟨_, e2⟩ := h2 j hj
  rw [hij, e2] at e1
  have key : ∀ a b c : List ℕ, a.length = c.length → b.length = c.length →
      List.zipWith (· + ·) a c = List.zipWith (· + ·) b c → a = b := by
    intro a b c ha hb he
    apply List.ext_getElem
    · rw [ha, hb]
    · intro k hk1 hk2
      have := congrArg (fun z : List ℕ => z[k]?) he
      simp [List.getElem?_zipWith, List.getElem?_eq_getElem hk1, List.getElem?_eq_getElem hk2,
        List.getElem?_eq_getElem (show k < c.length by omega)] at this
      exact this
  have hl : mults.length = degrees.length := hcl.length_eq
  have := key _ _ _ (by simp [digits_length, hl]) (by simp [digits_length, hl]) e1
  have := digits_inj _ _ _ (by omega) (by omega) this
  simp [this]

/-- hypotheses are met by a two-dimensional spline with C0 and discontinuous inner knots; values of the model -/
example : List.Forall₂ Spec.Clamped [[3, 2, 3, 3], [2, 1, 2]] [2, 1] ∧
    (extractBezierPatchIDs [[3, 2, 3, 3], [2, 1, 2]] [2, 1])[1]? = some [2, 3, 4, 10, 11, 12] := by
  refine ⟨?_, by decide⟩
  refine List.Forall₂.cons ⟨by decide, by decide, by decide⟩ (List.Forall₂.cons ⟨by decide, by decide, by decide⟩ List.Forall₂.nil)

end Splinepy.BezierPatches
