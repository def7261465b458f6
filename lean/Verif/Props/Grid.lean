import Verif.Lemma.HyperPlane
import Mathlib.Tactic.LinearCombination

/-!
C07 (sampling grid) and C08 (boundary faces).

Specification vocabulary (`Verif/Spec/MixedRadix.lean`): `digits res id` are the grid coordinates of point `id` with the first
dimension running fastest, `flat` is the inverse.
-/
namespace Splinepy.Grid
open Splinepy.Spec Splinepy.Threads

/-- Coordinate number `k` of dimension `i` on the equidistant grid with `res i` points between `bounds i` (lower)
and `bounds (i + dim)` (upper). -/
def Spec.coord {K : Type*} [Field K] (dim : ℕ) (bounds : ℕ → K) (res : ℕ → ℤ) (i k : ℕ) : K :=
  bounds i + (bounds (i + dim) - bounds i) * ((k : K) / ((res i : K) - 1))

/-- Grid coordinates of sample number `id` in dimension `i`: `(id / prod(res[:i])) mod res[i]`. -/
def Spec.index (res : ℕ → ℤ) (i id : ℕ) : ℕ :=
  id / ((List.range i).map (fun j => (res j).toNat)).prod % (res i).toNat

/-- C07: resolutions below two, and only those, are rejected. -/
theorem setUp_rejects_iff {K : Type*} [Field K] (dim : ℕ) (bounds : ℕ → K) (res : ℕ → ℤ) :
    setUp dim bounds res = none ↔ ∃ i < dim, res i < 2 := by
  constructor
  · intro h
    by_contra hc
    have hc' : ∀ i < dim, 2 ≤ res i := fun i hi => by
      by_contra h2; exact hc ⟨i, hi, by omega⟩
    rw [setUp_eq dim bounds res hc'] at h
    exact absurd h (by simp)
  · rintro ⟨i, hi, h⟩
    unfold setUp
    rw [mapM_none_of_mem _ _ i (List.mem_range.2 hi) (by simp [setUpDim, h])]

theorem cast_toNat_sub_one {K : Type*} [Field K] (r : ℤ) (h : 2 ≤ r) :
    (((r.toNat - 1 : ℕ) : ℕ) : K) = (r : K) - 1 := by
  have : (r.toNat : ℤ) = r := Int.toNat_of_nonneg (by omega)
  rw [Nat.cast_sub (by omega), Nat.cast_one]
  have h2 : ((r.toNat : ℤ) : K) = (r : K) := by rw [this]
  rw [Int.cast_natCast] at h2
  rw [h2]

theorem linspace_eq_coord {K : Type*} [Field K] (dim : ℕ) (bounds : ℕ → K) (res : ℕ → ℤ) (i k : ℕ) (h : 2 ≤ res i) :
    linspace dim bounds res i k = Spec.coord dim bounds res i k := by
  unfold linspace Spec.coord
  have h1 := cast_toNat_sub_one (K := K) (res i) h
  rw [h1]; ring

/-- C07: the number of samples is the product of the resolutions, and sample number `id` has in dimension `i` the equidistant
coordinate number `(id / prod(res[:i])) mod res[i]`. -/
theorem sample_point_correct {K : Type*} [Field K] (dim : ℕ) (bounds : ℕ → K) (res : ℕ → ℤ)
    (h : ∀ i < dim, 2 ≤ res i) :
    ∃ gp, setUp dim bounds res = some gp ∧
      gp.len = ((List.range dim).map (fun j => (res j).toNat)).prod ∧
      ∀ id, idToGridPoint gp id =
        some ((List.range dim).map (fun i => Spec.coord dim bounds res i (Spec.index res i id))) := by
  refine ⟨_, setUp_eq dim bounds res h, rfl, fun id => ?_⟩
  unfold idToGridPoint
  simp only
  have := idToGridPointGo_eq
    ((List.range dim).map (fun i => ((res i).toNat, linspace dim bounds res i))) id (by
      intro p hp
      obtain ⟨i, hi, rfl⟩ := List.mem_map.1 hp
      have := h i (List.mem_range.1 hi)
      simp only; omega)
  simp only [List.map_map, Function.comp_def] at this
  rw [this]
  congr 1
  apply List.ext_getElem
  · simp [digits_length]
  · intro i h1 h2
    simp only [List.length_map, List.length_range] at h2
    rw [List.getElem_zipWith]
    rw [digits_getElem _ _ _ (by simpa using h2)]
    simp only [List.getElem_map, List.getElem_range]
    rw [linspace_eq_coord _ _ _ _ _ (h i h2)]
    unfold Spec.index
    congr 3
    rw [← List.map_take, List.take_range, Nat.min_eq_left (by omega)]

example : (∀ i < 2, (2 : ℤ) ≤ (fun _ => 3) i) ∧
    (setUp 2 (fun i => if i < 2 then (0 : ℚ) else 1) (fun i => if i = 0 then 3 else 2)).bind
      (fun gp => idToGridPoint gp 4) = some [1/2, 1] := by
  constructor
  · intro i _; simp
  · decide +kernel

/-- C07: first and last coordinate are exactly the bounds. -/
theorem coord_endpoints {K : Type*} [Field K] [CharZero K] (dim : ℕ) (bounds : ℕ → K) (res : ℕ → ℤ) (i : ℕ)
    (h : 2 ≤ res i) :
    Spec.coord dim bounds res i 0 = bounds i ∧
    Spec.coord dim bounds res i ((res i).toNat - 1) = bounds (i + dim) := by
  constructor
  · simp [Spec.coord]
  · unfold Spec.coord
    have h1 := cast_toNat_sub_one (K := K) (res i) h
    rw [h1]
    have h2 : (res i : K) - 1 ≠ 0 := by
      intro hc
      have : (res i : K) = ((1 : ℤ) : K) := by rw [Int.cast_one]; linear_combination hc
      have := Int.cast_injective this
      omega
    rw [div_self h2]; ring

/-- C07: all coordinates lie between the bounds and are strictly increasing with the index. -/
theorem coord_mem_strictMono {K : Type*} [Field K] [LinearOrder K] [IsStrictOrderedRing K] (dim : ℕ) (bounds : ℕ → K)
    (res : ℕ → ℤ) (i : ℕ) (h : 2 ≤ res i) (hb : bounds i < bounds (i + dim)) :
    (∀ k < (res i).toNat, bounds i ≤ Spec.coord dim bounds res i k ∧ Spec.coord dim bounds res i k ≤ bounds (i + dim)) ∧
    (∀ k l, k < l → Spec.coord dim bounds res i k < Spec.coord dim bounds res i l) := by
  have hr : (0 : K) < (res i : K) - 1 := by
    have : ((2 : ℤ) : K) ≤ (res i : K) := Int.cast_le.2 h
    push_cast at this; linarith
  have hm : ∀ k l : ℕ, k < l → Spec.coord dim bounds res i k < Spec.coord dim bounds res i l := by
    intro k l hkl
    unfold Spec.coord
    have h1 : (k : K) / ((res i : K) - 1) < (l : K) / ((res i : K) - 1) := by
      apply div_lt_div_of_pos_right _ hr
      exact_mod_cast hkl
    have := mul_lt_mul_of_pos_left h1 (sub_pos.2 hb)
    linarith
  refine ⟨fun k hk => ?_, hm⟩
  obtain ⟨h0, h1⟩ := coord_endpoints dim bounds res i h
  constructor
  · rcases Nat.eq_zero_or_pos k with hk0 | hk0
    · subst hk0; rw [h0]
    · have := hm 0 k hk0; rw [h0] at this; exact this.le
  · rcases Nat.lt_or_ge k ((res i).toNat - 1) with hk1 | hk1
    · have := hm k _ hk1; rw [h1] at this; exact this.le
    · have : k = (res i).toNat - 1 := by omega
      rw [this, h1]

example : (2 : ℤ) ≤ 3 ∧ (0 : ℚ) < 1 := by decide +kernel

/-- C07: two different samples differ in at least one grid index, and every combination of grid indices is sampled. -/
theorem sample_indices_bijective (dim : ℕ) (res : ℕ → ℤ) :
    let len := ((List.range dim).map (fun j => (res j).toNat)).prod
    (∀ a < len, ∀ b < len, (∀ i < dim, Spec.index res i a = Spec.index res i b) → a = b) ∧
    (∀ k : ℕ → ℕ, (∀ i < dim, k i < (res i).toNat) → ∃ a < len, ∀ i < dim, Spec.index res i a = k i) := by
  intro len
  have key : ∀ a i (hi : i < dim), (digits ((List.range dim).map (fun j => (res j).toNat)) a)[i]'(by
      rw [digits_length]; simpa using hi) = Spec.index res i a := by
    intro a i hi
    rw [digits_getElem _ _ _ (by simpa using hi)]
    unfold Spec.index
    simp only [List.getElem_map, List.getElem_range]
    rw [← List.map_take, List.take_range, Nat.min_eq_left (by omega)]
  constructor
  · intro a ha b hb hab
    apply digits_inj _ a b ha hb
    apply List.ext_getElem
    · simp [digits_length]
    · intro i h1 h2
      have hi : i < dim := by simpa [digits_length] using h1
      rw [key a i hi, key b i hi, hab i hi]
  · intro k hk
    have hg : InGrid ((List.range dim).map (fun j => (res j).toNat)) ((List.range dim).map k) := by
      rw [inGrid_iff]
      refine ⟨by simp, fun d hd => ?_⟩
      simp only [List.getElem_map, List.getElem_range]
      exact hk d (by simpa using hd)
    refine ⟨_, flat_lt _ _ hg, fun i hi => ?_⟩
    rw [← key _ i hi]
    simp only [digits_flat _ _ hg]
    simp

example : (List.range 6).map (fun a => (Spec.index (fun i => if i = 0 then 3 else 2) 0 a,
    Spec.index (fun i => if i = 0 then 3 else 2) 1 a)) = [(0, 0), (1, 0), (2, 0), (0, 1), (1, 1), (2, 1)] := by decide

/-- C07: filling the whole query table writes the same points: entry `d` of row `row` (at memory position `row * dim + d`) is coordinate
`d` of sample `row`; this is what the "same parametric bounds" variant of multipatch sampling relies on. -/
theorem fill_eq_samples {K : Type*} [Field K] (dim : ℕ) (bounds : ℕ → K) (res : ℕ → ℤ)
    (h : ∀ i < dim, 2 ≤ res i) :
    ∃ gp, setUp dim bounds res = some gp ∧
      ∀ mem : ℕ → Option K, ∀ row < gp.len, ∀ d < dim,
        runWrites mem (fill gp) (row * dim + d) = some (Spec.coord dim bounds res d (Spec.index res d row)) := by
  refine ⟨_, setUp_eq dim bounds res h, fun mem row hrow d hd => ?_⟩
  have hs := fillGo_spec dim
    ((List.range dim).map (fun i => ((res i).toNat, linspace dim bounds res i))) 0
    (((List.range dim).map (fun j => (res j).toNat)).prod) 1 (by
      intro p hp
      obtain ⟨i, hi, rfl⟩ := List.mem_map.1 hp
      have := h i (List.mem_range.1 hi)
      simp only; omega) (by simp) (by simp [Function.comp_def])
  simp only [List.map_map, Function.comp_def] at hs
  obtain ⟨h1, _, h3⟩ := hs
  unfold fill
  simp only [List.length_map, List.length_range]
  apply runWrites_of_nodup _ _ _ _ h1
  have := h3 row (by simpa using hrow) d (by simpa using hd)
  simp only [List.getElem_map, List.getElem_range, Nat.zero_add, Nat.one_mul] at this
  rw [linspace_eq_coord _ _ _ _ _ (h d hd)] at this
  unfold Spec.index
  rw [← List.map_take, List.take_range, Nat.min_eq_left (by omega)] at this
  exact this

/-! ### C08 -/

/-- `b` is a boundary id of a spline with `n` parametric dimensions. -/
def Spec.IsBoundary (n b : ℕ) : Prop := b < 2 * n

/-- Grid index of the boundary `b` along its axis `b / 2`: first (even `b`) or last (odd `b`). -/
def Spec.planeIndex (r b : ℕ) : ℕ := if b % 2 = 0 then 0 else r - 1

/-- C08: the control points of boundary `b`: the local point number `l` of the face with grid coordinates `m` along the remaining axes is the
control point with coordinates `m` and the first/last index inserted at axis `b / 2`. -/
theorem boundary_point_coordinates (cmr : List ℕ) (b : ℕ) (hpos : ∀ r ∈ cmr, 0 < r)
    (hb : Spec.IsBoundary cmr.length b) :
    ∃ ids, boundaryIds cmr b = some ids ∧ ids.length = (cmr.eraseIdx (b / 2)).prod ∧
      ∀ l (hl : l < ids.length), ids[l] < cmr.prod ∧
        digits cmr ids[l] = (digits (cmr.eraseIdx (b / 2)) l).insertIdx (b / 2)
          (Spec.planeIndex (cmr.getD (b / 2) 0) b) := by
  unfold Spec.IsBoundary at hb
  have ha : b / 2 < cmr.length := by omega
  unfold boundaryIds
  simp only [List.getElem?_eq_getElem ha]
  refine ⟨_, rfl, ?_, ?_⟩
  · simp [idsOnHyperPlane, nPointsOnPlane_eq]
  · intro l hl
    have hgd : cmr.getD (b / 2) 0 = cmr[b / 2] := by
      rw [List.getD_eq_getElem?_getD, List.getElem?_eq_getElem ha]; rfl
    rw [hgd]
    simp only [idsOnHyperPlane, List.getElem_map, List.getElem_range]
    rw [localToGlobalGo_eq _ _ _ _ _ _ _ (Nat.zero_le _) (by simpa using ha)]
    simp only [Nat.sub_zero, Nat.zero_add, Nat.one_mul]
    have hgrid : InGrid cmr ((digits (cmr.eraseIdx (b / 2)) l).insertIdx (b / 2)
        (if b % 2 = 0 then 0 else cmr[b / 2] - 1)) := by
      apply inGrid_insertIdx _ _ _ _ ha
      · have := hpos cmr[b / 2] (List.getElem_mem ha)
        split <;> omega
      · apply digits_inGrid
        intro r hr
        exact hpos r (List.mem_of_mem_eraseIdx hr)
    exact ⟨flat_lt _ _ hgrid, by rw [digits_flat _ _ hgrid]; rfl⟩

/-- C08: a control point belongs to the boundary exactly if its index along the axis is the first (last), and none is listed twice. -/
theorem boundary_points_exact (cmr : List ℕ) (b : ℕ) (hpos : ∀ r ∈ cmr, 0 < r)
    (hb : Spec.IsBoundary cmr.length b) :
    ∃ ids, boundaryIds cmr b = some ids ∧ ids.Nodup ∧
      ∀ id, id ∈ ids ↔ id < cmr.prod ∧
        (digits cmr id)[b / 2]? = some (Spec.planeIndex (cmr.getD (b / 2) 0) b) := by
  obtain ⟨ids, h1, h2, h3⟩ := boundary_point_coordinates cmr b hpos hb
  unfold Spec.IsBoundary at hb
  have ha : b / 2 < cmr.length := by omega
  have hle : (cmr.eraseIdx (b / 2)).length = cmr.length - 1 := by
    rw [List.length_eraseIdx, if_pos ha]
  refine ⟨ids, h1, ?_, fun id => ?_⟩
  · rw [List.nodup_iff_injective_getElem]
    rintro ⟨i, hi⟩ ⟨j, hj⟩ hij
    simp only at hij
    obtain ⟨_, e1⟩ := h3 i hi
    obtain ⟨_, e2⟩ := h3 j hj
    rw [hij, e2] at e1
    have := List.insertIdx_injective _ _ e1
    have := digits_inj _ _ _ (by omega) (by omega) this
    simp [this]
  · constructor
    · intro hid
      obtain ⟨l, hl, rfl⟩ := List.getElem_of_mem hid
      obtain ⟨h4, h5⟩ := h3 l hl
      refine ⟨h4, ?_⟩
      rw [h5, List.getElem?_insertIdx_self, if_pos]
      rw [digits_length, hle]; omega
    · rintro ⟨hid, hd⟩
      have hlen : b / 2 < (digits cmr id).length := by rw [digits_length]; exact ha
      rw [List.getElem?_eq_getElem hlen, Option.some.injEq] at hd
      set cs := (digits cmr id).eraseIdx (b / 2) with hcs
      have hg : InGrid (cmr.eraseIdx (b / 2)) cs := inGrid_eraseIdx _ _ _ (digits_inGrid _ _ hpos)
      have hl : flat (cmr.eraseIdx (b / 2)) cs < ids.length := by rw [h2]; exact flat_lt _ _ hg
      obtain ⟨h4, h5⟩ := h3 _ hl
      rw [digits_flat _ _ hg, ← hd] at h5
      have h6 : cs.insertIdx (b / 2) (digits cmr id)[b / 2] = digits cmr id := by
        rw [hcs]; exact insertIdx_eraseIdx_self _ _ hlen
      rw [h6] at h5
      have := digits_inj _ _ _ h4 hid h5
      rw [← this]
      exact List.getElem_mem hl

example : boundaryIds [3, 2, 2] 1 = some [2, 5, 8, 11] ∧ boundaryIds [3, 2, 2] 2 = some [0, 1, 2, 6, 7, 8] ∧
    (∀ r ∈ [3, 2, 2], 0 < r) ∧ Spec.IsBoundary 3 2 := by
  refine ⟨by decide, by decide, by decide, by unfold Spec.IsBoundary; decide⟩

/-- C08, observable effect: the boundary spline gets exactly the control points of these ids, and the slice never reads outside of the control
points. -/
theorem boundary_slice_control_points {P : Type*} (cmr : List ℕ) (cps : List P) (b : ℕ) (hpos : ∀ r ∈ cmr, 0 < r)
    (hcps : cps.length = cmr.prod) (hb : Spec.IsBoundary cmr.length b) :
    ∃ ids face, boundaryIds cmr b = some ids ∧ sliceControlPoints cps ids = some face ∧
      face.length = (cmr.eraseIdx (b / 2)).prod ∧
      ∀ m, InGrid (cmr.eraseIdx (b / 2)) m →
        face[flat (cmr.eraseIdx (b / 2)) m]? =
          cps[flat cmr (m.insertIdx (b / 2) (Spec.planeIndex (cmr.getD (b / 2) 0) b))]? := by
  obtain ⟨ids, h1, h2, h3⟩ := boundary_point_coordinates cmr b hpos hb
  have hs : ∀ id ∈ ids, id < cps.length := by
    intro id hid
    obtain ⟨l, hl, rfl⟩ := List.getElem_of_mem hid
    rw [hcps]; exact (h3 l hl).1
  obtain ⟨face, hf, hff⟩ := Threads.mapM_some_of_forall (fun id => cps[id]?) ids
    (fun id hid => ⟨_, List.getElem?_eq_getElem (hs id hid)⟩)
  refine ⟨ids, face, h1, hf, by rw [← List.Forall₂.length_eq hff, h2], fun m hm => ?_⟩
  have hl : flat (cmr.eraseIdx (b / 2)) m < ids.length := by rw [h2]; exact flat_lt _ _ hm
  have hl2 : flat (cmr.eraseIdx (b / 2)) m < face.length := by rw [← List.Forall₂.length_eq hff]; exact hl
  rw [List.forall₂_iff_get] at hff
  have h4 := hff.2 _ hl hl2
  simp only [List.get_eq_getElem] at h4
  rw [List.getElem?_eq_getElem hl2, ← h4]
  obtain ⟨h5, h6⟩ := h3 _ hl
  rw [digits_flat _ _ hm] at h6
  rw [← h6, flat_digits _ _ h5]

/-- Boundary ids and (axis, extreme) pairs correspond. -/
theorem boundaryFromAxis_spec (axis : ℕ) (extreme : ℤ) :
    boundaryFromAxisAndExtrema axis extreme / 2 = axis ∧
    (boundaryFromAxisAndExtrema axis extreme % 2 = 1 ↔ 0 < extreme) := by
  unfold boundaryFromAxisAndExtrema
  split <;> constructor <;> omega

end Splinepy.Grid
