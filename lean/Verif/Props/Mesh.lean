import Verif.Model.Mesh
import Verif.Props.Index
import Verif.Props.Unique
import Verif.Props.Boundary

/-!
C90: `extract.edges` draws the knot lines of the spline. C91: `extract.faces` and `extract.volumes` draw the sampled cells of every patch, for three parametric directions the
sampled cells of the boundary.
-/
set_option linter.unusedSectionVars false
namespace Splinepy.Mesh
open Splinepy.Index (Spline)
open Splinepy.Spec (Direction directions firstFastest InDomain ValidSpline point)

variable {K P : Type}

/-! ### Specification -/

/-- What is drawn: every element with the vertices its numbers refer to. -/
def Spec.drawn (m : Mesh P) : List (List (Option P)) := m.elements.map fun e => e.map fun v => m.vertices[v]?

/-- The parameter number `k` of `r` equidistant parameters of a direction. -/
def Spec.parameter [Field K] (d : Direction K) (r k : ℕ) : K := d.lower + (k : K) * ((d.upper - d.lower) / ((r - 1 : ℕ) : K))

/-- The pieces of one knot line: direction `i`, all other parameters `others`. -/
def Spec.knotLine [Field K] (evaluate : List K → P) (d : Direction K) (r i : ℕ) (others : List K) : List (List (Option P)) :=
  (List.range (r - 1)).map fun k => [some (evaluate (others.insertIdx i (parameter d r k))), some (evaluate (others.insertIdx i (parameter d r (k + 1))))]

/-! ### Proof -/

theorem drawn_blocks (blocks : List (List P)) (cells : List (List ℕ)) (n : ℕ) (hb : ∀ b ∈ blocks, b.length = n) (hc : ∀ c ∈ cells, ∀ v ∈ c, v < n) :
    Spec.drawn ⟨blocks.flatten, (List.range blocks.length).flatMap fun i => cells.map fun c => c.map fun v => v + i * n⟩ =
      blocks.flatMap fun b => cells.map fun c => c.map fun v => b[v]? := by
  have key : ∀ i (hi : i < blocks.length), ∀ v < n, blocks.flatten[v + i * n]? = blocks[i][v]? := by
    intro i hi v hv
    induction blocks generalizing i with
    | nil => simp at hi
    | cons b bs ih =>
      have hl : b.length = n := hb b List.mem_cons_self
      cases i with
      | zero =>
        simp only [List.flatten_cons, Nat.zero_mul, Nat.add_zero, List.getElem_cons_zero]
        rw [List.getElem?_append_left (by omega)]
      | succ i =>
        rw [List.flatten_cons, List.getElem?_append_right (by rw [hl, Nat.succ_mul]; omega), List.getElem_cons_succ, hl]
        rw [show v + (i + 1) * n - n = v + i * n by rw [Nat.succ_mul]; omega]
        exact ih (fun b' h => hb b' (List.mem_cons_of_mem _ h)) i (by simpa using hi)
  unfold Spec.drawn
  simp only [List.map_flatMap, List.map_map]
  have e : blocks = (List.range blocks.length).map fun i => blocks.getD i [] := by
    apply List.ext_getElem
    · simp
    · intro i h1 h2
      simp only [List.getElem_map, List.getElem_range]
      rw [List.getD_eq_getElem _ _ h1]
  conv_rhs => rw [e, List.flatMap_map]
  rw [List.flatMap_def, List.flatMap_def]
  congr 1
  apply List.map_congr_left
  intro i hi
  have hi' := List.mem_range.1 hi
  apply List.map_congr_left
  intro c hcc
  simp only [Function.comp_apply, List.map_map]
  apply List.map_congr_left
  intro v hv
  simp only [Function.comp_apply]
  rw [key i hi' v (hc c hcc v hv), List.getD_eq_getElem _ _ hi']

theorem drawn_concat (ms : List (Mesh P)) (h : ∀ m ∈ ms, ∀ e ∈ m.elements, ∀ v ∈ e, v < m.vertices.length) : Spec.drawn (concat ms) = ms.flatMap Spec.drawn := by
  induction ms with
  | nil => rfl
  | cons m ms ih =>
    rw [List.flatMap_cons, ← ih fun m' hm' => h m' (List.mem_cons_of_mem _ hm')]
    simp only [Spec.drawn, concat, List.map_append, List.map_map]
    congr 1
    · apply List.map_congr_left
      intro e he
      apply List.map_congr_left
      intro v hv
      rw [List.getElem?_append_left (h m List.mem_cons_self e he v hv)]
    · apply List.map_congr_left
      intro e he
      simp only [Function.comp_apply, List.map_map]
      apply List.map_congr_left
      intro v hv
      simp only [Function.comp_apply]
      rw [List.getElem?_append_right (by omega), Nat.add_sub_cancel]

theorem reorder_eq (i : ℕ) (x : K) (tail : List K) (hi : i ≤ tail.length) : reorder (tail.length + 1) i ((x :: tail).map some) = (tail.insertIdx i x).map some := by
  unfold reorder
  have h0 : tail.insertIdx i x = tail.take i ++ x :: tail.drop i := by
    induction i generalizing tail with
    | zero => simp
    | succ i ih =>
      cases tail with
      | nil => simp at hi
      | cons y tail => simpa using ih tail (by simpa using hi)
  rw [h0]
  simp only [List.map_append, List.map_map, List.map_cons, List.map_nil, Nat.add_sub_cancel, List.append_assoc]
  congr 1
  · apply List.ext_getElem
    · simp; omega
    · intro k h1 h2
      have hk : k < tail.length := by simp at h1; omega
      simp [hk]
  · simp only [List.getD_cons_zero, List.cons_append, List.nil_append, List.cons.injEq, true_and]
    apply List.ext_getElem
    · simp
    · intro k h1 h2
      have hk : i + k < tail.length := by simp at h1; omega
      simp only [List.getElem_map, List.getElem_range, Function.comp_apply, List.getElem_drop]
      rw [show k + (1 + i) = (i + k) + 1 by omega, List.getD_cons_succ, List.getD_eq_getElem _ _ (by simpa using hk), List.getElem_map]

theorem mapM_some (rows : List (List K)) : ((rows.map fun x => x.map some).mapM fun (row : List (Option K)) => row.mapM id) = some rows := by
  have h1 : ∀ x : List K, (x.map some).mapM id = some x := by
    intro x
    induction x with
    | nil => rfl
    | cons a x ih => rw [List.map_cons, List.mapM_cons, ih]; rfl
  induction rows with
  | nil => rfl
  | cons a rows ih => rw [List.map_cons, List.mapM_cons, ih, h1]; rfl

theorem rangeToEdges_lt (r : ℕ) : ∀ c ∈ rangeToEdges r, ∀ v ∈ c, v < r := by
  intro c hc v hv
  obtain ⟨k, hk, rfl⟩ := List.mem_map.1 hc
  have := List.mem_range.1 hk
  simp at hv
  omega

theorem firstFastest_mem_length {α : Type} (l : List (List α)) (x : List α) (hx : x ∈ firstFastest l) : x.length = l.length :=
  (Splinepy.Spec.mem_firstFastest l x |>.1 hx).length_eq.symm

theorem lines_eq [Field K] (evaluate : List K → P) (dirs : List (Direction K)) (knots : List (List K)) (hk : knots.length = dirs.length) (resolution : List ℕ) (i : ℕ) (d : Direction K)
    (r : ℕ) (hd : dirs[i]? = some d) (hr : resolution[i]? = some r) :
    ∃ m, lines evaluate dirs knots resolution i = some m ∧ (∀ e ∈ m.elements, ∀ v ∈ e, v < m.vertices.length) ∧
      Spec.drawn m = (firstFastest (knots.eraseIdx i)).flatMap (Spec.knotLine evaluate d r i) := by
  have hi : i < dirs.length := (List.getElem?_eq_some_iff.1 hd).1
  have hlen : ∀ tail ∈ firstFastest (knots.eraseIdx i), tail.length + 1 = dirs.length := by
    intro t ht
    rw [firstFastest_mem_length _ _ ht, List.length_eraseIdx, if_pos (by omega)]
    omega
  set L := linspace d.lower d.upper r with hL
  have hLl : L.length = r := by simp [hL, linspace]
  set blocks := (firstFastest (knots.eraseIdx i)).map fun tail => L.map fun x => evaluate (tail.insertIdx i x) with hblocks
  have hcount : ((knots.eraseIdx i).map List.length).prod = blocks.length := by
    rw [hblocks, List.length_map]
    generalize knots.eraseIdx i = l
    induction l with
    | nil => rfl
    | cons a l ih =>
      simp only [firstFastest, List.map_cons, List.prod_cons, List.length_flatMap, List.length_map, List.map_const', List.sum_replicate, smul_eq_mul, ih]
      ring
  have e1 : lines evaluate dirs knots resolution i =
      some ⟨blocks.flatten, (List.range blocks.length).flatMap fun j => (rangeToEdges r).map fun e => e.map fun v => v + j * r⟩ := by
    unfold lines
    rw [hd, hr]
    simp only
    rw [Index.cartesian_product_reverse _ (by simp)]
    simp only [Option.bind_some, List.map_map]
    have e2 : (firstFastest (L :: knots.eraseIdx i)).map (reorder dirs.length i ∘ fun x => x.map some) =
        ((firstFastest (knots.eraseIdx i)).flatMap fun tail => L.map fun x => tail.insertIdx i x).map fun x => x.map some := by
      simp only [firstFastest, List.map_flatMap, List.map_map]
      rw [List.flatMap_def, List.flatMap_def]
      congr 1
      apply List.map_congr_left
      intro tail ht
      apply List.map_congr_left
      intro x _
      simp only [Function.comp_apply]
      rw [← hlen tail ht, reorder_eq i x tail (by have := hlen tail ht; omega)]
    rw [e2, mapM_some]
    simp only [Option.map_some, Option.some.injEq, Mesh.mk.injEq]
    refine ⟨?_, ?_⟩
    · rw [List.map_flatMap, List.flatMap_def, hblocks]
      simp only [List.map_map]
      rfl
    · rw [hcount]
      simp only [mul_comm]
  refine ⟨_, e1, ?_, ?_⟩
  · intro e he v hv
    simp only at he ⊢
    obtain ⟨j, hj, he⟩ := List.mem_flatMap.1 he
    obtain ⟨c, hc, rfl⟩ := List.mem_map.1 he
    obtain ⟨w, hw, rfl⟩ := List.mem_map.1 hv
    have h1 := rangeToEdges_lt r c hc w hw
    have h2 := List.mem_range.1 hj
    have h3 : blocks.flatten.length = blocks.length * r := by
      rw [List.length_flatten, List.map_congr_left (g := fun _ => r)]
      · simp
      · intro b hb
        obtain ⟨t, -, rfl⟩ := List.mem_map.1 hb
        simp [hLl]
    rw [h3]
    nlinarith
  · rw [drawn_blocks blocks (rangeToEdges r) r _ (rangeToEdges_lt r)]
    · rw [hblocks, List.flatMap_map]
      rw [List.flatMap_def, List.flatMap_def]
      congr 1
      apply List.map_congr_left
      intro tail _
      unfold Spec.knotLine rangeToEdges
      rw [List.map_map]
      apply List.map_congr_left
      intro k hk
      have hk := List.mem_range.1 hk
      have h1 : ∀ m < r, (L.map fun x => evaluate (tail.insertIdx i x))[m]? = some (evaluate (tail.insertIdx i (Spec.parameter d r m))) := by
        intro m hm
        rw [List.getElem?_map, List.getElem?_eq_getElem (by omega)]
        simp only [hL, linspace, Spec.parameter, List.getElem_map, List.getElem_range, Option.map_some]
      simp only [Function.comp_apply, List.map_cons, List.map_nil]
      rw [h1 k (by omega), h1 (k + 1) (by omega)]
    · intro b hb
      obtain ⟨t, -, rfl⟩ := List.mem_map.1 hb
      simp [hLl]

/-- C90: the edges of a spline with at least two parametric directions are, direction after direction, the sampled lines through all combinations of the knots (with
`all_knots=False` of the bounds) of the other directions; every edge connects two neighbouring samples of the same line, and nothing else is drawn. -/
theorem edges_draw_knot_lines [Field K] [LinearOrder K] (eps : K) (evaluate : List K → P) (dirs : List (Direction K)) (resolution : List ℕ) (hr : resolution.length = dirs.length)
    (allKnots : Bool) :
    ∃ m, edges eps evaluate dirs resolution allKnots = some m ∧
      Spec.drawn m = (dirs.zip resolution).zipIdx.flatMap fun x =>
        (firstFastest ((dirs.map (relevantKnots eps allKnots)).eraseIdx x.2)).flatMap (Spec.knotLine evaluate x.1.1 x.1.2 x.2) := by
  set knots := dirs.map (relevantKnots eps allKnots) with hk
  have h : ∀ i, i < dirs.length → ∃ m, lines evaluate dirs knots resolution i = some m ∧ (∀ e ∈ m.elements, ∀ v ∈ e, v < m.vertices.length) ∧
      ∀ (d : Direction K) (r : ℕ), dirs[i]? = some d → resolution[i]? = some r → Spec.drawn m = (firstFastest (knots.eraseIdx i)).flatMap (Spec.knotLine evaluate d r i) := by
    intro i hi
    obtain ⟨m, h1, h2, h3⟩ := lines_eq evaluate dirs knots (by simp [hk]) resolution i dirs[i] resolution[i] (List.getElem?_eq_getElem hi) (List.getElem?_eq_getElem (by omega))
    refine ⟨m, h1, h2, fun d r hd hr' => ?_⟩
    rw [List.getElem?_eq_getElem hi, Option.some.injEq] at hd
    rw [List.getElem?_eq_getElem (by omega), Option.some.injEq] at hr'
    subst hd hr'
    exact h3
  have : Inhabited (Mesh P) := ⟨⟨[], []⟩⟩
  choose! f f1 f2 f3 using h
  refine ⟨concat ((List.range dirs.length).map f), ?_, ?_⟩
  · unfold edges
    rw [Grid.mapM_eq_some_map' _ f _ fun i hi => f1 i (List.mem_range.1 hi)]
    rfl
  · rw [drawn_concat _ (by
      intro m hm
      obtain ⟨i, hi, rfl⟩ := List.mem_map.1 hm
      exact f2 i (List.mem_range.1 hi)), List.flatMap_map]
    have e : (dirs.zip resolution).zipIdx = (List.range dirs.length).attach.map fun i =>
        ((dirs[i.1]'(List.mem_range.1 i.2), resolution[i.1]'(by have := List.mem_range.1 i.2; omega)), i.1) := by
      apply List.ext_getElem
      · simp [hr]
      · intro i h1 h2
        simp
    rw [e, List.flatMap_map]
    conv_lhs => rw [← List.attach_map_subtype_val (List.range dirs.length), List.flatMap_map]
    rw [List.flatMap_def, List.flatMap_def]
    congr 1
    apply List.map_congr_left
    intro i _
    exact f3 i.1 (List.mem_range.1 i.2) _ _ (List.getElem?_eq_getElem _) (List.getElem?_eq_getElem _)

section Ordered
variable [Field K] [LinearOrder K] [IsStrictOrderedRing K]

theorem parameter_mem {d : Direction K} (h : d.lower ≤ d.upper) {r k : ℕ} (hk : k < r) : d.Contains (Spec.parameter d r k) := by
  unfold Spec.parameter Direction.Contains
  rcases Nat.eq_zero_or_pos (r - 1) with h0 | h0
  · have : k = 0 := by omega
    subst this
    simp [h]
  · have h1 : (0 : K) < ((r - 1 : ℕ) : K) := by exact_mod_cast h0
    have h2 : (k : K) ≤ ((r - 1 : ℕ) : K) := by exact_mod_cast (by omega : k ≤ r - 1)
    have h3 : (k : K) * ((d.upper - d.lower) / ((r - 1 : ℕ) : K)) = (d.upper - d.lower) * ((k : K) / ((r - 1 : ℕ) : K)) := by ring
    have h4 : (k : K) / ((r - 1 : ℕ) : K) ≤ 1 := (div_le_one h1).2 h2
    have h5 : (0 : K) ≤ (k : K) / ((r - 1 : ℕ) : K) := div_nonneg (Nat.cast_nonneg _) h1.le
    rw [h3]
    constructor <;> nlinarith

theorem valid_le {d : Direction K} (h : d.Valid) : d.lower ≤ d.upper := by
  cases hk : d.knots with
  | none => simp [Direction.lower, Direction.upper, hk]
  | some kv => exact (h kv hk).2.2.le

theorem relevant_mem {eps : K} (heps : 0 < eps) {allKnots : Bool} {d : Direction K} (hd : d.Valid) {x : K} (hx : x ∈ relevantKnots eps allKnots d) : d.Contains x := by
  unfold relevantKnots at hx
  split at hx
  · cases hk : d.knots with
    | none =>
      rw [hk] at hx
      simp only [List.mem_cons, List.not_mem_nil, or_false] at hx
      rcases hx with rfl | rfl <;> simp [Direction.Contains, Direction.lower, Direction.upper, hk]
    | some kv =>
      rw [hk] at hx
      simp only at hx
      obtain ⟨hs, hl, -⟩ := hd kv hk
      have hm : x ∈ (kv.drop d.deg).take (kv.length - 2 * d.deg) := by
        unfold Unique.uniqueKnots at hx
        set l := (kv.drop d.deg).take (kv.length - 2 * d.deg) with hl
        have hsub : l.Sublist kv := (List.take_sublist _ _).trans (List.drop_sublist _ _)
        obtain ⟨h1, -⟩ := Unique.groups_sorted (fun x : K => x) eps heps l (hs.sublist hsub)
        rw [Unique.stdUnique_eq_groups _ 0] at hx
        obtain ⟨g, hg, rfl⟩ := List.mem_map.1 hx
        obtain ⟨h, t, hgt, -⟩ := h1 g hg
        have hflat := Unique.groups_flatten (fun a b : K => Unique.close eps a b) l
        rw [← hflat, List.mem_flatten]
        exact ⟨g, hg, by rw [hgt]; simp⟩
      obtain ⟨i, hi, rfl⟩ := List.getElem_of_mem hm
      simp only [List.length_take, List.length_drop] at hi
      simp only [List.getElem_take, List.getElem_drop]
      simp only [Direction.Contains, Direction.lower, Direction.upper, hk, Splinepy.Spec.knotSeq]
      rw [List.getD_eq_getElem kv _ (by omega), List.getD_eq_getElem kv _ (by omega)]
      constructor
      · rcases Nat.eq_zero_or_pos i with rfl | h
        · simp
        · exact List.pairwise_iff_getElem.1 hs _ _ _ _ (by omega)
      · rcases Nat.lt_or_ge (d.deg + i) (kv.length - d.deg - 1) with h | h
        · exact List.pairwise_iff_getElem.1 hs _ _ _ _ h
        · simp only [show d.deg + i = kv.length - d.deg - 1 by omega]; exact le_rfl
  · simp only [List.mem_cons, List.not_mem_nil, or_false] at hx
    have := valid_le hd
    rcases hx with rfl | rfl
    · exact ⟨le_rfl, this⟩
    · exact ⟨this, le_rfl⟩

theorem forall₂_insertIdx {α β : Type} {R : α → β → Prop} {l : List α} {m : List β} {i : ℕ} {a : α} {b : β} (h : List.Forall₂ R l m) (hab : R a b) :
    List.Forall₂ R (l.insertIdx i a) (m.insertIdx i b) := by
  induction h generalizing i with
  | nil => cases i <;> simp [hab]
  | cons h1 h2 ih =>
    cases i with
    | zero => simpa using ⟨hab, h1, h2⟩
    | succ i => simpa using ⟨h1, ih⟩

/-- C90: all end points of edges are points of the spline: they are evaluated inside of the parametric domain. -/
theorem edges_on_spline {eps : K} (heps : 0 < eps) {dirs : List (Direction K)} (hv : ∀ d ∈ dirs, d.Valid) {allKnots : Bool} {i : ℕ} {d : Direction K} (hd : dirs[i]? = some d) {r k : ℕ}
    (hk : k < r) {others : List K} (ho : others ∈ firstFastest ((dirs.map (relevantKnots eps allKnots)).eraseIdx i)) :
    List.Forall₂ Direction.Contains dirs (others.insertIdx i (Spec.parameter d r k)) := by
  obtain ⟨hi, e⟩ := List.getElem?_eq_some_iff.1 hd
  have hdirs : dirs = (dirs.eraseIdx i).insertIdx i d := by rw [← e, List.insertIdx_eraseIdx_getElem]
  have h1 : List.Forall₂ Direction.Contains (dirs.eraseIdx i) others := by
    rw [Splinepy.Spec.mem_firstFastest, List.eraseIdx_map, List.forall₂_map_left_iff] at ho
    have hm : ∀ x ∈ dirs.eraseIdx i, x.Valid := fun x hx => hv x (List.mem_of_mem_eraseIdx hx)
    clear hdirs
    generalize dirs.eraseIdx i = l at ho hm
    induction ho with
    | nil => exact List.Forall₂.nil
    | cons h1 _ ih => exact List.Forall₂.cons (relevant_mem heps (hm _ (by simp)) h1) (ih fun x hx => hm x (by simp [hx]))
  conv => arg 2; rw [hdirs]
  exact forall₂_insertIdx h1 (parameter_mem (valid_le (hv d (by rw [← e]; exact List.getElem_mem _))) hk)

end Ordered

/-- C90: a curve, or every patch of a multipatch of curves, is drawn by the edges between its neighbouring samples. -/
theorem curve_edges_draw (samples : List (List P)) (resolution : ℕ) (h : ∀ s ∈ samples, s.length = resolution) :
    Spec.drawn (curveEdges samples resolution) = samples.flatMap fun s => (List.range (resolution - 1)).map fun k => [s[k]?, s[k + 1]?] := by
  unfold curveEdges
  rw [drawn_blocks samples (rangeToEdges resolution) resolution h (rangeToEdges_lt resolution)]
  simp [rangeToEdges, Function.comp_def]

/-- C91: the faces or volumes of a multipatch are, patch after patch, the cells of the patch with the samples of the patch. -/
theorem patch_cells_draw (samples : List (List P)) (cells : List (List ℕ)) (n : ℕ) (h : ∀ s ∈ samples, s.length = n) (hc : ∀ c ∈ cells, ∀ v ∈ c, v < n) :
    Spec.drawn (patchCells samples cells n) = samples.flatMap fun s => Spec.drawn ⟨s, cells⟩ := drawn_blocks samples cells n h hc

/-! ### faces of splines with three parametric directions -/

/-- Corners of cell `(i, j)` of a grid over two directions, as parameters: first direction first, in cyclic order. -/
def Spec.cellCorners [Field K] (d0 d1 : Direction K) (r0 r1 i j : ℕ) : List (List K) :=
  [[parameter d0 r0 i, parameter d1 r1 j], [parameter d0 r0 (i + 1), parameter d1 r1 j], [parameter d0 r0 (i + 1), parameter d1 r1 (j + 1)],
    [parameter d0 r0 i, parameter d1 r1 (j + 1)]]

/-- All cells of a grid over two directions, first direction running fastest. -/
def Spec.gridCells [Field K] (d0 d1 : Direction K) (r0 r1 : ℕ) : List (List (List K)) :=
  (List.range (r1 - 1)).flatMap fun j => (List.range (r0 - 1)).map fun i => cellCorners d0 d1 r0 r1 i j

theorem sample_get [Field K] (evaluate : List K → P) (d0 d1 : Direction K) (r0 r1 i j : ℕ) (hi : i < r0) (hj : j < r1) :
    (sample evaluate [d0, d1] [r0, r1])[i + r0 * j]? = some (evaluate [Spec.parameter d0 r0 i, Spec.parameter d1 r1 j]) := by
  have e : sample evaluate [d0, d1] [r0, r1] = ((List.range r1).map fun j => (List.range r0).map fun i => evaluate [Spec.parameter d0 r0 i, Spec.parameter d1 r1 j]).flatten := by
    simp [sample, firstFastest, linspace, List.flatMap_def, Function.comp_def, Spec.parameter]
  have h := drawn_blocks ((List.range r1).map fun j => (List.range r0).map fun i => evaluate [Spec.parameter d0 r0 i, Spec.parameter d1 r1 j]) [[i]] r0 (by simp) (by simpa using hi)
  have h2 := congrArg (fun l => l[j]?) h
  rw [e]
  simp only [Spec.drawn, List.map_cons, List.map_nil, List.length_map, List.length_range, List.flatMap_map] at h2
  rw [← List.map_eq_flatMap, ← List.map_eq_flatMap, List.map_map] at h2
  simp only [List.getElem?_map, List.getElem?_range hj, Option.map_some, Function.comp_apply, List.map_cons, List.map_nil, Option.some.injEq, List.cons.injEq, and_true,
    List.getElem?_range hi] at h2
  rw [Nat.mul_comm r0 j]
  exact h2

theorem drawn_sample [Field K] (evaluate : List K → P) (d0 d1 : Direction K) (r0 r1 : ℕ) :
    Spec.drawn ⟨sample evaluate [d0, d1] [r0, r1], quadFaces r0 r1⟩ = (Spec.gridCells d0 d1 r0 r1).map fun c => c.map fun u => some (evaluate u) := by
  unfold Spec.drawn quadFaces Spec.gridCells
  rw [List.map_flatMap, List.map_flatMap, List.flatMap_def, List.flatMap_def]
  congr 1
  apply List.map_congr_left
  intro j hj
  have hj := List.mem_range.1 hj
  rw [List.map_map, List.map_map]
  apply List.map_congr_left
  intro i hi
  have hi := List.mem_range.1 hi
  simp only [Function.comp_apply, List.map_cons, List.map_nil, Spec.cellCorners]
  rw [sample_get _ _ _ _ _ i j (by omega) (by omega), sample_get _ _ _ _ _ (i + 1) j (by omega) (by omega), sample_get _ _ _ _ _ (i + 1) (j + 1) (by omega) (by omega),
    sample_get _ _ _ _ _ i (j + 1) (by omega) (by omega)]

/-- C91: the faces of a surface are the cells of the sampled grid. -/
theorem surface_faces_draw [Field K] (evaluate : List K → P) (d0 d1 : Direction K) (r0 r1 : ℕ) :
    Spec.drawn (surfaceFaces evaluate [d0, d1] r0 r1) = (Spec.gridCells d0 d1 r0 r1).map fun c => c.map fun u => some (evaluate u) := drawn_sample ..

theorem sample_length [Field K] (evaluate : List K → P) (d0 d1 : Direction K) (r0 r1 : ℕ) : (sample evaluate [d0, d1] [r0, r1]).length = r0 * r1 := by
  simp [sample, firstFastest, linspace, List.length_flatMap, Function.comp_def, Nat.mul_comm]

theorem quadFaces_lt (r0 r1 : ℕ) : ∀ c ∈ quadFaces r0 r1, ∀ v ∈ c, v < r0 * r1 := by
  intro c hc v hv
  unfold quadFaces at hc
  obtain ⟨j, hj, hc⟩ := List.mem_flatMap.1 hc
  obtain ⟨i, hi, rfl⟩ := List.mem_map.1 hc
  have hj := List.mem_range.1 hj
  have hi := List.mem_range.1 hi
  have h1 : r0 * (j + 1) + r0 ≤ r0 * r1 := by
    have : j + 1 + 1 ≤ r1 := by omega
    calc r0 * (j + 1) + r0 = r0 * (j + 1 + 1) := by ring
      _ ≤ r0 * r1 := Nat.mul_le_mul_left _ this
  have h2 : r0 * j ≤ r0 * (j + 1) := Nat.mul_le_mul_left _ (by omega)
  simp only [List.mem_cons, List.not_mem_nil, or_false] at hv
  omega

section Ordered
variable [Field K] [LinearOrder K] [IsStrictOrderedRing K]

/-- C91: for an integer resolution, the faces of a multipatch of surfaces are, patch after patch, the cells of the sampled grid of the patch. -/
theorem multipatch_faces_draw [Field K] (evaluate : Spline K P → List K → P) (patches : List (Spline K P)) (h : ∀ p ∈ patches, (directions p).length = 2) (r : ℕ) :
    ∃ m, multipatchFaces evaluate patches (.int r) = some m ∧ Spec.drawn m = patches.flatMap fun p =>
      (Spec.gridCells ((directions p).getD 0 ⟨0, none⟩) ((directions p).getD 1 ⟨0, none⟩) r r).map fun c => c.map fun u => some (evaluate p u) := by
  refine ⟨_, rfl, ?_⟩
  have hd : ∀ p ∈ patches, ∃ d0 d1, directions p = [d0, d1] := fun p hp => List.length_eq_two.1 (h p hp)
  rw [patch_cells_draw _ _ _ ?_ ?_, List.flatMap_map]
  · refine List.flatMap_congr fun p hp => ?_
    obtain ⟨d0, d1, e⟩ := hd p hp
    rw [e]
    exact drawn_sample ..
  · intro s hs
    obtain ⟨p, hp, rfl⟩ := List.mem_map.1 hs
    obtain ⟨d0, d1, e⟩ := hd p hp
    rw [e, sample_length, sq]
  · intro c hc v hv
    rw [sq]
    exact quadFaces_lt r r c hc v hv

/-- C91 (disagreement): a list of resolutions, which is documented for `faces` and `volumes`, is rejected for every multipatch of surfaces and every multipatch of volumes. -/
theorem multipatch_resolutions_violates [Field K] (hexa : ℕ → List (List ℕ)) (evaluate : Spline K P → List K → P) (patches : List (Spline K P)) (rs : List ℕ) :
    multipatchFaces evaluate patches (.list rs) = none ∧ multipatchVolumes hexa evaluate patches (.list rs) = none := ⟨rfl, rfl⟩

theorem face_draw {s : Spline K (List K)} (hs : ValidSpline s) (h2 : 2 ≤ s.degrees.length) {b : ℕ} {d da db : Direction K} (hd : (directions s)[b / 2]? = some d)
    (hc : Boundary.Spec.ClampedAt d b) (he : (directions s).eraseIdx (b / 2) = [da, db]) (dim : ℕ) :
    ∃ q, Boundary.boundary s b = some q ∧ directions q = [da, db] ∧ ∀ ra rb,
      Spec.drawn ⟨sample (fun u => (List.range dim).map (point q u)) [da, db] [ra, rb], quadFaces ra rb⟩ =
        (Spec.gridCells da db ra rb).map fun c => c.map fun u => some ((List.range dim).map (point s (u.insertIdx (b / 2) (Boundary.Spec.faceParameter d b)))) := by
  obtain ⟨q, h1, hq, -, -, -, h3, h4⟩ := Boundary.boundary_restricts hs h2 hd hc
  refine ⟨q, h1, by rw [h3, he], fun ra rb => ?_⟩
  obtain ⟨hi, e⟩ := List.getElem?_eq_some_iff.1 hd
  have hdirs : directions s = (([da, db] : List (Direction K))).insertIdx (b / 2) d := by rw [← he, ← e, List.insertIdx_eraseIdx_getElem]
  have hb : b / 2 ≤ 2 := by
    have := congrArg List.length he
    rw [List.length_eraseIdx, if_pos hi] at this
    simp at this
    omega
  have hvd := hs.dirs d (by rw [← e]; exact List.getElem_mem _)
  have hva := hs.dirs da (List.mem_of_mem_eraseIdx (i := b / 2) (by rw [he]; simp))
  have hvb := hs.dirs db (List.mem_of_mem_eraseIdx (i := b / 2) (by rw [he]; simp))
  have hface : d.Contains (Boundary.Spec.faceParameter d b) := by
    have := valid_le hvd
    unfold Boundary.Spec.faceParameter
    split
    · exact ⟨le_rfl, this⟩
    · exact ⟨this, le_rfl⟩
  have key : ∀ i < ra, ∀ j < rb, (List.range dim).map (point q [Spec.parameter da ra i, Spec.parameter db rb j]) =
      (List.range dim).map (point s ([Spec.parameter da ra i, Spec.parameter db rb j].insertIdx (b / 2) (Boundary.Spec.faceParameter d b))) := by
    intro i hi j hj
    apply List.map_congr_left
    intro k _
    have h5 := h4 ([Spec.parameter da ra i, Spec.parameter db rb j].insertIdx (b / 2) (Boundary.Spec.faceParameter d b)) (by
      unfold InDomain
      rw [hdirs]
      refine forall₂_insertIdx ?_ hface
      exact List.Forall₂.cons (parameter_mem (valid_le hva) hi) (List.Forall₂.cons (parameter_mem (valid_le hvb) hj) List.Forall₂.nil)) (by
      rw [List.getD_eq_getElem _ _ (by rw [List.length_insertIdx, List.length_cons, List.length_cons, List.length_nil]; split <;> omega), List.getElem_insertIdx_self])
    rw [List.eraseIdx_insertIdx_self] at h5
    exact h5.2 k
  rw [drawn_sample]
  unfold Spec.gridCells
  rw [List.map_flatMap, List.map_flatMap, List.flatMap_def, List.flatMap_def]
  congr 1
  apply List.map_congr_left
  intro j hj
  have hj := List.mem_range.1 hj
  rw [List.map_map, List.map_map]
  apply List.map_congr_left
  intro i hi
  have hi := List.mem_range.1 hi
  simp only [Function.comp_apply, List.map_cons, List.map_nil, Spec.cellCorners]
  rw [key i (by omega) j (by omega), key (i + 1) (by omega) j (by omega), key (i + 1) (by omega) (j + 1) (by omega), key i (by omega) (j + 1) (by omega)]

/-- C91: the faces of a spline with three parametric directions are, boundary after boundary, the cells of the grid over the two remaining directions, and every corner is the point of the
spline with this parameter on the boundary. The knot vectors have to be clamped (C89). -/
theorem volume_faces_on_boundary {s : Spline K (List K)} (hs : ValidSpline s) {d0 d1 d2 : Direction K} (hd : directions s = [d0, d1, d2])
    (hc : ∀ b < 6, ∀ d, (directions s)[b / 2]? = some d → Boundary.Spec.ClampedAt d b) (dim r0 r1 r2 : ℕ) :
    ∃ m, volumeFaces (fun q u => (List.range dim).map (point q u)) s [r0, r1, r2] = some m ∧
      Spec.drawn m =
        ((Spec.gridCells d1 d2 r1 r2).map fun c => c.map fun u => some ((List.range dim).map (point s (u.insertIdx 0 d0.lower)))) ++
        ((Spec.gridCells d1 d2 r1 r2).map fun c => c.map fun u => some ((List.range dim).map (point s (u.insertIdx 0 d0.upper)))) ++
        ((Spec.gridCells d0 d2 r0 r2).map fun c => c.map fun u => some ((List.range dim).map (point s (u.insertIdx 1 d1.lower)))) ++
        ((Spec.gridCells d0 d2 r0 r2).map fun c => c.map fun u => some ((List.range dim).map (point s (u.insertIdx 1 d1.upper)))) ++
        ((Spec.gridCells d0 d1 r0 r1).map fun c => c.map fun u => some ((List.range dim).map (point s (u.insertIdx 2 d2.lower)))) ++
        ((Spec.gridCells d0 d1 r0 r1).map fun c => c.map fun u => some ((List.range dim).map (point s (u.insertIdx 2 d2.upper)))) := by
  have hlen : s.degrees.length = 3 := by
    have h := congrArg List.length hd
    unfold directions at h
    cases hk : s.knotVectors with
    | none => rw [hk] at h; simpa using h
    | some kvs =>
      rw [hk] at h
      have := hs.knots kvs hk
      simp at h
      omega
  obtain ⟨q0, a0, b0, c0⟩ := face_draw hs (by omega) (b := 0) (d := d0) (da := d1) (db := d2) (by rw [hd]; rfl) (hc 0 (by omega) _ (by rw [hd]; rfl)) (by rw [hd]; rfl) dim
  obtain ⟨q1, a1, b1, c1⟩ := face_draw hs (by omega) (b := 1) (d := d0) (da := d1) (db := d2) (by rw [hd]; rfl) (hc 1 (by omega) _ (by rw [hd]; rfl)) (by rw [hd]; rfl) dim
  obtain ⟨q2, a2, b2, c2⟩ := face_draw hs (by omega) (b := 2) (d := d1) (da := d0) (db := d2) (by rw [hd]; rfl) (hc 2 (by omega) _ (by rw [hd]; rfl)) (by rw [hd]; rfl) dim
  obtain ⟨q3, a3, b3, c3⟩ := face_draw hs (by omega) (b := 3) (d := d1) (da := d0) (db := d2) (by rw [hd]; rfl) (hc 3 (by omega) _ (by rw [hd]; rfl)) (by rw [hd]; rfl) dim
  obtain ⟨q4, a4, b4, c4⟩ := face_draw hs (by omega) (b := 4) (d := d2) (da := d0) (db := d1) (by rw [hd]; rfl) (hc 4 (by omega) _ (by rw [hd]; rfl)) (by rw [hd]; rfl) dim
  obtain ⟨q5, a5, b5, c5⟩ := face_draw hs (by omega) (b := 5) (d := d2) (da := d0) (db := d1) (by rw [hd]; rfl) (hc 5 (by omega) _ (by rw [hd]; rfl)) (by rw [hd]; rfl) dim
  have hbs : Boundary.boundaries s [] = some [q0, q1, q2, q3, q4, q5] := by
    rw [Boundary.boundaries_listed]
    refine ⟨?_, by simp⟩
    rw [if_pos rfl, hlen]
    simp [List.range_succ, a0, a1, a2, a3, a4, a5]
  have hl : ∀ (ev : List K → List K) (x y : Direction K) (ra rb : ℕ), ∀ e ∈ quadFaces ra rb, ∀ v ∈ e, v < (sample ev [x, y] [ra, rb]).length := by
    intro ev x y ra rb
    rw [sample_length]
    exact quadFaces_lt ra rb
  unfold volumeFaces
  rw [hbs]
  simp only [Option.bind_some]
  by_cases hr : r0 = r1 ∧ r1 = r2
  · obtain ⟨rfl, rfl⟩ := hr
    rw [if_pos ⟨rfl, rfl⟩]
    refine ⟨_, rfl, ?_⟩
    rw [patch_cells_draw _ _ _ (by
      simp only [List.map_cons, List.map_nil, b0, b1, b2, b3, b4, b5, List.mem_cons, List.not_mem_nil, or_false]
      rintro x (rfl | rfl | rfl | rfl | rfl | rfl) <;> rw [sample_length, pow_two]) (by rw [pow_two]; exact quadFaces_lt r0 r0)]
    simp only [List.map_cons, List.map_nil, List.flatMap_cons, List.flatMap_nil, List.append_nil, b0, b1, b2, b3, b4, b5]
    rw [c0, c1, c2, c3, c4, c5]
    simp [Boundary.Spec.faceParameter]
  · rw [if_neg hr]
    refine ⟨_, rfl, ?_⟩
    rw [drawn_concat]
    · simp only [List.zipIdx_cons, List.zipIdx_nil, List.map_cons, List.map_nil, List.flatMap_cons, List.flatMap_nil, List.append_nil, b0, b1, b2, b3, b4, b5, zero_add, Nat.reduceAdd,
        Nat.reduceDiv, List.eraseIdx_cons_zero, List.eraseIdx_cons_succ, List.getD_cons_zero, List.getD_cons_succ]
      rw [c0, c1, c2, c3, c4, c5]
      simp [Boundary.Spec.faceParameter]
    · simp only [List.zipIdx_cons, List.zipIdx_nil, List.map_cons, List.map_nil, b0, b1, b2, b3, b4, b5, zero_add, Nat.reduceAdd, List.mem_cons, List.not_mem_nil, or_false,
        Nat.reduceDiv, List.eraseIdx_cons_zero, List.eraseIdx_cons_succ, List.getD_cons_zero, List.getD_cons_succ]
      rintro m (rfl | rfl | rfl | rfl | rfl | rfl) <;> exact hl _ _ _ _ _

end Ordered

/-! ### Examples -/

/-- A linear direction with an inner knot and a quadratic one without: the line of the inner knot is drawn with the others. -/
def exampleDirections : List (Direction ℚ) := [⟨1, some [0, 0, 1/2, 1, 1]⟩, ⟨2, some [0, 0, 0, 2, 2, 2]⟩]

example : (edges (1/100) id exampleDirections [2, 3] true).map Spec.drawn = some
    [[some [0, 0], some [1, 0]], [some [0, 2], some [1, 2]], [some [0, 0], some [0, 1]], [some [0, 1], some [0, 2]], [some [1/2, 0], some [1/2, 1]], [some [1/2, 1], some [1/2, 2]],
      [some [1, 0], some [1, 1]], [some [1, 1], some [1, 2]]] := by decide +kernel

example : Spec.drawn (surfaceFaces id exampleDirections 2 3) =
    [[some [0, 0], some [1, 0], some [1, 1], some [0, 1]], [some [0, 1], some [1, 1], some [1, 2], some [0, 2]]] := by decide +kernel

example : Spec.drawn (patchCells [[10, 11, 12, 13], [20, 21, 22, 23]] (quadFaces 2 2) 4) = [[some 10, some 11, some 13, some 12], [some 20, some 21, some 23, some 22]] := by decide

/-- A trilinear volume. -/
def exampleVolume : Spline ℚ (List ℚ) := ⟨[1, 1, 1], none, none, [[0, 0, 0], [1, 0, 0], [0, 2, 0], [1, 2, 0], [0, 0, 3], [1, 0, 3], [0, 2, 3], [2, 2, 4]]⟩

example : ∃ m, volumeFaces (fun q u => (List.range 3).map (point q u)) exampleVolume [2, 2, 2] = some m ∧ (Spec.drawn m).length = 6 := by
  obtain ⟨m, h1, h2⟩ := volume_faces_on_boundary (s := exampleVolume) (d0 := ⟨1, none⟩) (d1 := ⟨1, none⟩) (d2 := ⟨1, none⟩)
    ⟨by simp [exampleVolume], by simp [exampleVolume, directions, Direction.Valid], by decide, by simp [exampleVolume]⟩ rfl
    (by
      intro b _ d hd kv hk
      obtain ⟨d', hd', rfl⟩ := List.mem_map.1 (List.mem_of_getElem? hd)
      simp at hk) 3 2 2 2
  exact ⟨m, h1, by rw [h2]; rfl⟩

/-- two squares side by side -/
example : ∃ m, multipatchFaces (fun q u => (List.range 2).map (point q u))
    [(⟨[1, 1], none, none, [[0, 0], [1, 0], [0, 1], [1, 1]]⟩ : Spline ℚ (List ℚ)), ⟨[1, 1], none, none, [[1, 0], [2, 0], [1, 1], [2, 1]]⟩] (.int 3) = some m ∧ (Spec.drawn m).length = 8 := by
  obtain ⟨m, h1, h2⟩ := multipatch_faces_draw (fun q u => (List.range 2).map (point q u))
    [(⟨[1, 1], none, none, [[0, 0], [1, 0], [0, 1], [1, 1]]⟩ : Spline ℚ (List ℚ)), ⟨[1, 1], none, none, [[1, 0], [2, 0], [1, 1], [2, 1]]⟩] (by simp [directions]) 3
  exact ⟨m, h1, by rw [h2]; decide +kernel⟩

end Splinepy.Mesh
