import Verif.Props.MfemFile
import Mathlib.Tactic.IntervalCases

/-!
C81: the MFEM file of a multipatch lists the vertices of each patch in the order of MFEM, and one boundary element per boundary face with the label of this face.
-/
namespace Splinepy.Mfem
open Splinepy.Spec Splinepy.Index

/-! ### Specification -/

/-- corner `c` (counted as in MFEM) lies on face `f` of splinepy: direction `f / 2`, upper end if `f` is odd -/
def Spec.onFace (d f c : ℕ) : Bool := ((Spec.mfemCorners d).getD c []).getD (f / 2) false == (f % 2 == 1)

/-- the corners are neighbours: they differ in one direction -/
def Spec.Neighbours (d c e : ℕ) : Prop :=
  ((List.range d).filter fun k => ((Spec.mfemCorners d).getD c []).getD k false != ((Spec.mfemCorners d).getD e []).getD k false).length = 1

instance (d c e : ℕ) : Decidable (Spec.Neighbours d c e) := by unfold Spec.Neighbours; infer_instance

/-- `order` lists the corners of face `f`, each once, so that consecutive ones (also the last and the first one) are neighbours -/
def Spec.GoesAround (d f : ℕ) (order : List ℕ) : Prop :=
  order.Perm ((List.range (2 ^ d)).filter (Spec.onFace d f)) ∧ ∀ i < order.length, Spec.Neighbours d (order.getD i 0) (order.getD ((i + 1) % order.length) 0)

/-- faces (patch, face) with a negative entry in the table of interfaces: the faces on the boundary -/
def Spec.boundaryFaces (d : ℕ) (interfaces : List (List ℤ)) : List (ℕ × ℕ) :=
  (List.range interfaces.length).flatMap fun p => ((List.range (2 * d)).filter fun f => ((interfaces.getD p []).getD f 0) < 0).map fun f => (p, f)

/-- control point at corner `c` -/
def Spec.cornerPoint {K : Type} (d : ℕ) (s : Spline K (List K)) (c : ℕ) : List K :=
  s.controlPoints.getD (Spec.cornerId (controlMeshResolutions s) ((Spec.mfemCorners d).getD c [])) []

/-- `close_rows` of gustaf: one number per row, the same one for two rows iff they are close -/
structure Spec.Numbers {K : Type} (close : List K → List K → Prop) (numbers : List (List K) → List ℕ) : Prop where
  length : ∀ l, (numbers l).length = l.length
  same : ∀ l i j, i < l.length → j < l.length → ((numbers l).getD i 0 = (numbers l).getD j 0 ↔ close (l.getD i []) (l.getD j []))

/-- a patch with the given parametric dimension -/
def Spec.HasNet {K : Type} (d : ℕ) (s : Spline K (List K)) : Prop :=
  (controlMeshResolutions s).length = d ∧ (∀ r ∈ controlMeshResolutions s, 1 ≤ r) ∧ s.controlPoints.length = (controlMeshResolutions s).prod

open Spec

/-! ### Proofs -/
section
variable {K : Type} [Field K]

theorem corner_ids {d : ℕ} (hd : d = 2 ∨ d = 3) (res : List ℕ) (hl : res.length = d) (h1 : ∀ r ∈ res, 1 ≤ r) :
    cornerVertexIds res = some ((mfemCorners d).map fun c => (cornerId res c : ℤ)) ∧ ∀ c ∈ mfemCorners d, cornerId res c < res.prod := by
  rcases hd with rfl | rfl
  · obtain ⟨a, b, rfl⟩ := List.length_eq_two.1 hl
    obtain ⟨a, rfl⟩ := Nat.exists_eq_add_of_le' (h1 a (by simp))
    obtain ⟨b, rfl⟩ := Nat.exists_eq_add_of_le' (h1 b (by simp))
    constructor
    · simp only [cornerVertexIds, mfemCorners, cornerId, List.map_cons, List.map_nil, List.zipWith_cons_cons, List.zipWith_nil_left, flat]
      push_cast
      simp
      ring
    · intro c hc
      simp only [mfemCorners, List.mem_cons, List.not_mem_nil, or_false] at hc
      rcases hc with rfl | rfl | rfl | rfl <;> simp [cornerId, flat] <;> nlinarith
  · obtain ⟨a, b, c, rfl⟩ := List.length_eq_three.1 hl
    obtain ⟨a, rfl⟩ := Nat.exists_eq_add_of_le' (h1 a (by simp))
    obtain ⟨b, rfl⟩ := Nat.exists_eq_add_of_le' (h1 b (by simp))
    obtain ⟨c, rfl⟩ := Nat.exists_eq_add_of_le' (h1 c (by simp))
    constructor
    · simp only [cornerVertexIds, mfemCorners, cornerId, List.map_cons, List.map_nil, List.zipWith_cons_cons, List.zipWith_nil_left, flat]
      push_cast
      simp
      and_intros <;> ring
    · intro e he
      simp only [mfemCorners, List.mem_cons, List.not_mem_nil, or_false] at he
      rcases he with rfl | rfl | rfl | rfl | rfl | rfl | rfl | rfl <;> simp [cornerId, flat] <;> nlinarith [Nat.zero_le (a * b), Nat.zero_le (a * c), Nat.zero_le (b * c),
        Nat.zero_le (a * (b * c))]

theorem pyGet_nat {α : Type} (l : List α) (d : α) (i : ℕ) (h : i < l.length) : pyGet l (i : ℤ) = some (l.getD i d) := by
  rw [pyGet, Index.pyIndex, if_pos ⟨by omega, by exact_mod_cast h⟩]
  rw [Option.bind_some, Int.toNat_natCast, List.getElem?_eq_getElem h, List.getD_eq_getElem l _ h]

theorem map_range_getD {α β : Type} (l : List α) (d : α) (f : α → β) : l.map f = (List.range l.length).map fun i => f (l.getD i d) := by
  apply List.ext_getElem
  · simp
  · intro i hi hi'
    rw [List.getElem_map, List.getElem_map, List.getElem_range, List.getD_eq_getElem l _ (by simpa using hi)]

theorem corners_length {d : ℕ} (hd : d = 2 ∨ d = 3) : (mfemCorners d).length = 2 ^ d := by rcases hd with rfl | rfl <;> rfl

/-- corners of one patch -/
theorem corners_of_patch {d : ℕ} (hd : d = 2 ∨ d = 3) (s : Spline K (List K)) (h : HasNet d s) :
    (do
      let ids ← cornerVertexIds (controlMeshResolutions s)
      ids.mapM fun i => pyGet s.controlPoints i) = some ((List.range (2 ^ d)).map (cornerPoint d s)) := by
  obtain ⟨h1, h2, h3⟩ := h
  obtain ⟨e, lt⟩ := corner_ids hd _ h1 h2
  rw [e]
  simp only [Option.bind_eq_bind, Option.bind_some]
  rw [List.mapM_map, Grid.mapM_eq_some_map' _ (fun c => s.controlPoints.getD (cornerId (controlMeshResolutions s) c) []) _ fun c hc => ?_]
  · rw [map_range_getD _ [], corners_length hd]
    rfl
  · exact pyGet_nat _ _ _ (by rw [h3]; exact lt c hc)

theorem flatten_getD {α : Type} (m : ℕ) : ∀ (rows : List (List α)) (d : α), (∀ r ∈ rows, r.length = m) → ∀ p c, p < rows.length → c < m →
    rows.flatten.getD (p * m + c) d = (rows.getD p []).getD c d
  | r :: rows, d, h, p, c, hp, hc => by
    have hr : r.length = m := h r (by simp)
    rcases p with - | p
    · rw [List.flatten_cons, List.getD_append _ _ _ _ (by omega)]
      simp
    · rw [List.flatten_cons, List.getD_append_right _ _ _ _ (by rw [hr]; nlinarith), hr, show (p + 1) * m + c - m = p * m + c by rw [add_mul, one_mul]; omega,
        flatten_getD m rows d (fun r hr => h r (by simp [hr])) p c (by simpa using hp) hc]
      simp

theorem flatten_length {α : Type} (m : ℕ) : ∀ (rows : List (List α)), (∀ r ∈ rows, r.length = m) → rows.flatten.length = rows.length * m
  | [], _ => by simp
  | r :: rows, h => by
    rw [List.flatten_cons, List.length_append, flatten_length m rows fun r hr => h r (by simp [hr]), h r (by simp), List.length_cons]
    ring

theorem reshape_rows (l : List ℕ) (n m : ℕ) (hm : 0 < m) (h : l.length = n * m) :
    ((List.range (l.length / m)).map fun p => (l.drop (p * m)).take m) = (List.range n).map fun p => (List.range m).map fun c => l.getD (p * m + c) 0 := by
  rw [h, Nat.mul_div_cancel _ hm]
  refine List.map_congr_left fun p hp => ?_
  have hp := List.mem_range.1 hp
  have hle : p * m + m ≤ n * m := by nlinarith
  apply List.ext_getElem
  · simp; omega
  · intro i hi hi'
    have hi2 : i < m := by simpa using hi'
    rw [List.getElem_take, List.getElem_drop, List.getElem_map, List.getElem_range, List.getD_eq_getElem l _ (by omega)]

theorem negatives_eq (d : ℕ) (table : List (List ℤ)) (h : ∀ row ∈ table, row.length = 2 * d) :
    negatives table = (boundaryFaces d table).map fun x => (x, (table.getD x.1 []).getD x.2 0) := by
  have inner : ∀ (row : List ℤ) (p : ℕ), ((row.zipIdx.filter fun x => x.1 < 0).map fun x => ((p, x.2), x.1))
      = (((List.range row.length).filter fun f => row.getD f 0 < 0).map fun f => ((p, f), row.getD f 0)) := by
    intro row p
    have : row.zipIdx = (List.range row.length).map fun f => (row.getD f 0, f) := by
      apply List.ext_getElem
      · simp
      · intro i hi hi'
        rw [List.getElem_zipIdx, List.getElem_map, List.getElem_range, List.getD_eq_getElem row _ (by simpa using hi)]
        simp
    rw [this, List.filter_map, List.map_map]
    rfl
  unfold negatives boundaryFaces
  have : table.zipIdx = (List.range table.length).map fun p => (table.getD p [], p) := by
    apply List.ext_getElem
    · simp
    · intro i hi hi'
      rw [List.getElem_zipIdx, List.getElem_map, List.getElem_range, List.getD_eq_getElem table _ (by simpa using hi)]
      simp
  rw [this, List.flatMap_map, List.map_flatMap]
  apply List.flatMap_congr
  intro p hp
  have hp := List.mem_range.1 hp
  simp only
  rw [inner, List.map_map]
  have hl : (table.getD p []).length = 2 * d := by
    rw [List.getD_eq_getElem table _ hp]
    exact h _ (List.getElem_mem hp)
  rw [hl]
  rfl

theorem mem_boundaryFaces {d : ℕ} {table : List (List ℤ)} {x : ℕ × ℕ} (h : x ∈ boundaryFaces d table) : x.1 < table.length ∧ x.2 < 2 * d := by
  unfold boundaryFaces at h
  rw [List.mem_flatMap] at h
  obtain ⟨p, hp, h⟩ := h
  obtain ⟨f, hf, rfl⟩ := List.mem_map.1 h
  exact ⟨List.mem_range.1 hp, List.mem_range.1 (List.mem_filter.1 hf).1⟩

/-- vertices of a face, as `export_cartesian` lists them -/
def faceOrder (d f : ℕ) : List ℕ := (subElementVertices d).getD ((mfemFace d).getD f 0) []

theorem faceOrder_spec {d : ℕ} (hd : d = 2 ∨ d = 3) (f : ℕ) (hf : f < 2 * d) :
    ∃ face, (mfemFace d)[f]? = some face ∧ (subElementVertices d)[face]? = some (faceOrder d f) ∧ (∀ k ∈ faceOrder d f, k < 2 ^ d) ∧ GoesAround d f (faceOrder d f) := by
  unfold GoesAround
  rcases hd with rfl | rfl
  · have : f < 4 := hf
    interval_cases f <;> exact ⟨_, rfl, rfl, by decide, by decide, by decide⟩
  · have : f < 6 := hf
    interval_cases f <;> exact ⟨_, rfl, rfl, by decide, by decide, by decide⟩

/-- C81: elements, boundary elements and the number of vertices written by `export_cartesian`, for every multipatch of surfaces in the plane (`d = 2`) or volumes in space (`d = 3`).
`v p c` is the number of the vertex at corner `c` of patch `p`. -/
theorem export_cartesian_topology (close : List K → List K → Prop) (numbers : List (List K) → List ℕ) (hnum : Numbers close numbers) (d : ℕ) (hd : d = 2 ∨ d = 3)
    (patches : List (Spline K (List K))) (hp : ∀ s ∈ patches, HasNet d s) (hne : patches ≠ []) (interfaces : List (List ℤ)) (hil : interfaces.length = patches.length)
    (hi : ∀ row ∈ interfaces, row.length = 2 * d) :
    ∃ (file : Cartesian K) (v : ℕ → ℕ → ℕ) (order : ℕ → List ℕ), exportCartesian numbers d d patches interfaces = some file ∧
      file.dimension = d ∧
      (∀ p q (hp : p < patches.length) (hq : q < patches.length) c e, c < 2 ^ d → e < 2 ^ d → (v p c = v q e ↔ close (cornerPoint d patches[p] c) (cornerPoint d patches[q] e))) ∧
      file.elements = (List.range patches.length).map (fun p => (if d = 2 then 3 else 5, (List.range (2 ^ d)).map (v p))) ∧
      (∀ f < 2 * d, GoesAround d f (order f)) ∧
      file.boundary = (boundaryFaces d interfaces).map (fun x => (-(interfaces.getD x.1 []).getD x.2 0, if d = 2 then 1 else 3, (order x.2).map (v x.1))) ∧
      (∀ p < patches.length, ∀ c < 2 ^ d, v p c < file.vertices) ∧ (∃ p < patches.length, ∃ c < 2 ^ d, v p c + 1 = file.vertices) := by
  have hcorners : (patches.mapM fun s => do
      let ids ← cornerVertexIds (controlMeshResolutions s)
      ids.mapM fun i => pyGet s.controlPoints i) = some (patches.map fun s => (List.range (2 ^ d)).map (cornerPoint d s)) :=
    Grid.mapM_eq_some_map' _ _ _ fun s hs => corners_of_patch hd s (hp s hs)
  set rows := patches.map fun s => (List.range (2 ^ d)).map (cornerPoint d s) with hrows
  have hrl : rows.length = patches.length := by simp [hrows]
  have hrow : ∀ r ∈ rows, r.length = 2 ^ d := by
    intro r hr
    obtain ⟨s, hs, rfl⟩ := List.mem_map.1 hr
    simp
  have hfl : rows.flatten.length = patches.length * 2 ^ d := by rw [flatten_length _ rows hrow, hrl]
  have hin : (numbers rows.flatten).length = patches.length * 2 ^ d := by rw [hnum.length, hfl]
  have hper : (if d = 2 then 4 else 8) = 2 ^ d := by rcases hd with rfl | rfl <;> rfl
  have hlt : ∀ p c, p < patches.length → c < 2 ^ d → p * 2 ^ d + c < patches.length * 2 ^ d := by
    intro p c h1 h2
    calc p * 2 ^ d + c < p * 2 ^ d + 2 ^ d := by omega
      _ = (p + 1) * 2 ^ d := by ring
      _ ≤ _ := Nat.mul_le_mul_right _ h1
  let v : ℕ → ℕ → ℕ := fun p c => (numbers rows.flatten).getD (p * 2 ^ d + c) 0
  have hvid := reshape_rows (numbers rows.flatten) patches.length (2 ^ d) (by positivity) hin
  have hb : ((boundaryFaces d interfaces).map fun x => (x, (interfaces.getD x.1 []).getD x.2 0)).mapM (fun x => do
      let row ← ((List.range patches.length).map fun p => (List.range (2 ^ d)).map fun c => (numbers rows.flatten).getD (p * 2 ^ d + c) 0)[x.1.1]?
      let face ← (mfemFace d)[x.1.2]?
      let loc ← (subElementVertices d)[face]?
      let ids ← loc.mapM fun k => row[k]?
      some (-x.2, if d = 2 then 1 else 3, ids))
      = some ((boundaryFaces d interfaces).map (fun x => (-(interfaces.getD x.1 []).getD x.2 0, if d = 2 then 1 else 3, (faceOrder d x.2).map (v x.1)))) := by
    rw [List.mapM_map]
    refine Grid.mapM_eq_some_map' _ _ _ fun x hx => ?_
    obtain ⟨h1, h2⟩ := mem_boundaryFaces hx
    obtain ⟨face, e1, e2, e3, -⟩ := faceOrder_spec hd x.2 h2
    have e0 : ((List.range patches.length).map fun p => (List.range (2 ^ d)).map fun c => (numbers rows.flatten).getD (p * 2 ^ d + c) 0)[x.1]?
        = some ((List.range (2 ^ d)).map (v x.1)) := by
      rw [List.getElem?_eq_getElem (by simpa [← hil] using h1), List.getElem_map, List.getElem_range]
    have e4 : ((faceOrder d x.2).mapM fun k => ((List.range (2 ^ d)).map (v x.1))[k]?) = some ((faceOrder d x.2).map (v x.1)) := by
      refine Grid.mapM_eq_some_map' _ _ _ fun k hk => ?_
      rw [List.getElem?_eq_getElem (by simpa using e3 k hk), List.getElem_map, List.getElem_range]
    simp only [Function.comp, e0, e1, e2, e4, Option.bind_eq_bind, Option.bind_some]
  have hpos : 0 < patches.length := List.length_pos_iff.2 hne
  have hne' : numbers rows.flatten ≠ [] := by
    rw [← List.length_pos_iff, hin]
    positivity
  obtain ⟨top, htop⟩ : ∃ top, (numbers rows.flatten).max? = some top := by
    cases h : (numbers rows.flatten).max? with
    | none => exact absurd (List.max?_eq_none_iff.1 h) hne'
    | some t => exact ⟨t, rfl⟩
  obtain ⟨hmem, hmax⟩ := List.max?_eq_some_iff.1 htop
  refine ⟨⟨d, _, _, top + 1, patches.map cartesianPatch⟩, v, faceOrder d, ?_, rfl, ?_, rfl, fun f hf => ?_, rfl, ?_, ?_⟩
  · unfold exportCartesian
    rw [if_neg (fun h => h ⟨rfl, hd⟩), hcorners]
    simp only [Option.bind_eq_bind, Option.bind_some, hper]
    rw [hvid, negatives_eq d interfaces hi]
    simp only [Option.bind_eq_bind] at hb
    rw [hb, htop]
    simp only [Option.bind_some, List.map_map]
    rfl
  · intro p q hp hq c e hc he
    have := hnum.same rows.flatten (p * 2 ^ d + c) (q * 2 ^ d + e) (by rw [hfl]; exact hlt p c hp hc) (by rw [hfl]; exact hlt q e hq he)
    rw [flatten_getD _ rows _ hrow p c (by rw [hrl]; exact hp) hc, flatten_getD _ rows _ hrow q e (by rw [hrl]; exact hq) he] at this
    have get : ∀ p (hp : p < patches.length) c, c < 2 ^ d → (rows.getD p []).getD c [] = cornerPoint d patches[p] c := by
      intro p hp c hc
      rw [List.getD_eq_getElem rows _ (by rw [hrl]; exact hp)]
      simp only [hrows, List.getElem_map]
      rw [List.getD_eq_getElem ((List.range _).map _) _ (by simpa using hc), List.getElem_map, List.getElem_range]
    rw [get p hp c hc, get q hq e he] at this
    exact this
  · obtain ⟨_, _, _, _, h⟩ := faceOrder_spec hd f hf
    exact h
  · intro p hp c hc
    have := hlt p c hp hc
    refine Nat.lt_succ_of_le (hmax _ ?_)
    simp only [v]
    rw [List.getD_eq_getElem (numbers rows.flatten) _ (by omega)]
    exact List.getElem_mem _
  · obtain ⟨i, hi, rfl⟩ := List.mem_iff_getElem.1 hmem
    have hpw : 0 < 2 ^ d := by positivity
    refine ⟨i / 2 ^ d, Nat.div_lt_of_lt_mul (by rw [hin, mul_comm] at hi; exact hi), i % 2 ^ d, Nat.mod_lt _ hpw, ?_⟩
    simp only [v]
    rw [Nat.div_add_mod', List.getD_eq_getElem (numbers rows.flatten) _ hi]

/-- knots of a direction as written: those of the spline, or `0, …, 0, 1, …, 1` -/
def Spec.knotsOf (s : Spline K (List K)) (k : ℕ) : List K :=
  match s.knotVectors with
  | some kvs => kvs.getD k []
  | none => List.replicate (s.degrees.getD k 0 + 1) 0 ++ List.replicate (s.degrees.getD k 0 + 1) 1

/-- weight of a control point as written -/
def Spec.weightOf (s : Spline K (List K)) (i : ℕ) : K :=
  match s.weights with
  | some ws => ws.getD i 0
  | none => 1

/-- C81: each patch is written with degree, number of control points and knots of each direction, and with its control points in their order, followed by their weights. -/
theorem export_cartesian_patches (numbers : List (List K) → List ℕ) (d : ℕ) (patches : List (Spline K (List K))) (interfaces : List (List ℤ)) (file : Cartesian K)
    (h : exportCartesian numbers d d patches interfaces = some file) (hk : ∀ s ∈ patches, ∀ kvs, s.knotVectors = some kvs → kvs.length = s.degrees.length)
    (hw : ∀ s ∈ patches, ∀ ws, s.weights = some ws → ws.length = s.controlPoints.length) :
    file.patches = patches.map fun s =>
      ((List.range s.degrees.length).map (fun k => (s.degrees.getD k 0, (controlMeshResolutions s).getD k 0, knotsOf s k)),
        (List.range s.controlPoints.length).map fun i => s.controlPoints.getD i [] ++ [weightOf s i]) := by
  have e : file.patches = patches.map cartesianPatch := by
    unfold exportCartesian at h
    split at h
    · simp at h
    · simp only [Option.bind_eq_bind, Option.bind_eq_some_iff] at h
      obtain ⟨_, _, _, _, _, _, h⟩ := h
      injection h with h
      rw [← h]
  rw [e]
  refine List.map_congr_left fun s hs => ?_
  obtain ⟨degrees, knots, weights, cps⟩ := s
  unfold cartesianPatch
  refine Prod.ext ?_ ?_
  · simp only
    rcases knots with - | kvs
    · apply List.ext_getElem
      · simp [controlMeshResolutions]
      · intro i hi hi'
        have h0 : i < degrees.length := by simpa using hi'
        simp [controlMeshResolutions, knotsOf, h0]
    · have hl := hk _ hs kvs rfl
      simp only at hl
      apply List.ext_getElem
      · simp [controlMeshResolutions, hl]
      · intro i hi hi'
        have h0 : i < degrees.length := by simpa using hi'
        have h1 : i < kvs.length := by omega
        simp [controlMeshResolutions, knotsOf, h0, h1]
  · simp only
    rcases weights with - | ws
    · apply List.ext_getElem
      · simp
      · intro i hi hi'
        have h0 : i < cps.length := by simpa using hi'
        simp [weightOf, h0]
    · have hl := hw _ hs ws rfl
      simp only at hl
      apply List.ext_getElem
      · simp [hl]
      · intro i hi hi'
        have h0 : i < cps.length := by simpa using hi'
        have h1 : i < ws.length := by omega
        simp [weightOf, h0, h1]

/-- C81: other dimensions are rejected, whatever the patches are. -/
theorem export_cartesian_rejects (numbers : List (List K) → List ℕ) (paraDim dim : ℕ) (h : ¬ (paraDim = dim ∧ (dim = 2 ∨ dim = 3))) (patches : List (Spline K (List K)))
    (interfaces : List (List ℤ)) : exportCartesian numbers paraDim dim patches interfaces = none := by
  rw [exportCartesian, if_pos h]

end

/-! ### Example: two squares side by side -/

/-- numbering by equality -/
def Spec.byEquality (l : List (List ℚ)) : List ℕ := l.map fun x => l.idxOf x

theorem byEquality_numbers : Numbers (fun a b : List ℚ => a = b) byEquality where
  length := by simp [byEquality]
  same := by
    intro l i j hi hj
    unfold byEquality
    rw [List.getD_eq_getElem (l.map _) _ (by simpa using hi), List.getD_eq_getElem (l.map _) _ (by simpa using hj), List.getElem_map, List.getElem_map,
      List.getD_eq_getElem l _ hi, List.getD_eq_getElem l _ hj]
    refine ⟨fun h => ?_, fun h => by rw [h]⟩
    exact (List.idxOf_inj (List.getElem_mem hi)).1 h

/-- two unit squares -/
def Spec.squares : List (Spline ℚ (List ℚ)) :=
  [⟨[1, 1], none, none, [[0, 0], [1, 0], [0, 1], [1, 1]]⟩, ⟨[1, 1], none, none, [[1, 0], [2, 0], [1, 1], [2, 1]]⟩]

example : ∃ (file : Cartesian ℚ) (v : ℕ → ℕ → ℕ) (order : ℕ → List ℕ), exportCartesian byEquality 2 2 squares [[-1, 4, -2, -3], [1, -1, -2, -3]] = some file ∧ file.dimension = 2 ∧
    file.elements = (List.range 2).map (fun p => (3, (List.range 4).map (v p))) ∧ (∀ f < 4, GoesAround 2 f (order f)) ∧ v 0 1 = v 1 0 := by
  obtain ⟨file, v, order, h, hdim, hv, he, ho, -, -, -⟩ := export_cartesian_topology (fun a b : List ℚ => a = b) byEquality byEquality_numbers 2 (Or.inl rfl) squares
    (by
      intro s hs
      simp only [squares, List.mem_cons, List.not_mem_nil, or_false] at hs
      rcases hs with rfl | rfl <;> exact ⟨rfl, by decide, rfl⟩) (by simp [squares]) [[-1, 4, -2, -3], [1, -1, -2, -3]] rfl (by decide)
  exact ⟨file, v, order, h, hdim, he, ho, (hv 0 1 (by decide) (by decide) 1 0 (by decide) (by decide)).2 (by decide +kernel)⟩

end Splinepy.Mfem
