import Verif.Model.Sample
import Verif.Props.Queries
import Verif.Props.Grid

/-!
C151: `sample` of splines and multipatches returns the values at the points of the grid.

Specification: `Spec.gridPoint` here, `Grid.Spec.coord` and `Grid.Spec.index` (C07), `Queries.Spec.Returns` (shapes and entries of the returned arrays under every schedule
of the threads, nothing written outside of them) and `Queries.Spec.Safe`.
-/
namespace Splinepy.Sample
open Splinepy.Queries Splinepy.Threads Splinepy.Queries.Spec

/-- Point `k` of the grid with `res i` equidistant points between the bounds of direction `i`, the first direction running fastest. -/
def Spec.gridPoint {K : Type} [Field K] (paraDim : ℕ) (bounds : ℕ → K) (res : ℕ → ℤ) (k : ℕ) : List K :=
  (List.range paraDim).map fun i => Grid.Spec.coord paraDim bounds res i (Grid.Spec.index res i k)

variable {K : Type} [Field K] {pd dim hw : ℕ} {nthreads : ℤ}

theorem gridPoint_length (bounds : ℕ → K) (res : ℕ → ℤ) (k : ℕ) : (Spec.gridPoint pd bounds res k).length = pd := by
  simp [Spec.gridPoint]

/-- Number of points of the grid. -/
def Spec.gridSize (paraDim : ℕ) (res : ℕ → ℤ) : ℕ := ((List.range paraDim).map fun j => (res j).toNat).prod

theorem coreSample_returns (value : List K → List K) (bounds : ℕ → K) (hv : ∀ q, q.length = pd → (value q).length = dim) (a : NdArray ℤ) (rs : List ℤ)
    (hs : a.shape.prod = pd) (hraw : a.rawRow pd 0 = some rs) (h2 : ∀ i < pd, 2 ≤ rs.getD i 0)
    (hsafe : Safe hw (Spec.gridSize pd fun i => rs.getD i 0) nthreads) :
    Returns (coreSample value bounds pd dim hw a nthreads)
      [([Spec.gridSize pd fun i => rs.getD i 0, dim], fun
        | [k, d] => ((value (Spec.gridPoint pd bounds (fun i => rs.getD i 0) k))[d]?).map .num
        | _ => none)] := by
  obtain ⟨gp, hgp, hlen, hpt⟩ := Grid.sample_point_correct pd bounds (fun i => rs.getD i 0) h2
  have hlen' : gp.len = Spec.gridSize pd fun i => rs.getD i 0 := hlen
  unfold coreSample
  rw [if_pos hs, hraw, Option.bind_some, hgp, Option.bind_some, hlen']
  generalize Spec.gridSize pd (fun i => rs.getD i 0) = n at *
  have hl : ∀ i, (value (Spec.gridPoint pd bounds (fun i => rs.getD i 0) i)).length = dim := fun i => hv _ (gridPoint_length _ _ _)
  have h := returns_one (K := K) (hw := hw) (n := n) (pd := pd) hsafe (q := ⟨[], 0, [n, pd], []⟩) rfl
    (body := fun i => (Grid.idToGridPoint gp i).map fun q => put 0 (i * dim) ((value q).map .num))
    (ws := fun i => put 0 (i * dim) ((value (Spec.gridPoint pd bounds (fun i => rs.getD i 0) i)).map .num))
    (fun i _ => by rw [hpt]; rfl) [dim] (fun i k => ((value (Spec.gridPoint pd bounds (fun i => rs.getD i 0) i))[k]?).map .num)
    (fun i _ k hk => num_some (hl i) (by simpa using hk))
    (fun i _ w => by
      simp only [List.prod_cons, List.prod_nil, Nat.mul_one]
      exact mem_put_num (hl i))
    (fun
      | [k, d] => ((value (Spec.gridPoint pd bounds (fun i => rs.getD i 0) k))[d]?).map .num
      | _ => none)
    (fun i _ idx hidx => by
      match idx, hidx with
      | [d], hidx => simp [offset]
      | [], hidx => cases hidx
      | _ :: _ :: _, hidx => cases hidx with | cons _ h => cases h)
  simpa [checkRows] using h

theorem mapM_range_get {α : Type*} (l : List α) (f : ℕ → Option α) (n : ℕ) (hn : l.length = n) (h : ∀ k < n, f k = l[k]?) : (List.range n).mapM f = some l := by
  subst hn
  induction l using List.reverseRecOn generalizing f with
  | nil => simp
  | append_singleton l x ih =>
    rw [List.length_append, List.length_singleton, List.range_succ, List.mapM_append, ih f ?_]
    · simp [h l.length (by simp)]
    · intro k hk
      rw [h k (by simp; omega), List.getElem?_append_left hk]

/-- **C151, one resolution for all directions.** `spline.sample(r)` with `r ≥ 2` returns `r ^ para_dim` rows, row `k` is the value of the spline at point `k` of the grid,
whatever the schedule of the threads. -/
theorem sample_uniform (value : List K → List K) (bounds : ℕ → K) (hv : ∀ q, q.length = pd → (value q).length = dim) (r : ℤ) (hr : 2 ≤ r)
    (hsafe : Safe hw (r.toNat ^ pd) nthreads) :
    Returns (sample value bounds pd dim hw (.one r) nthreads)
      [([r.toNat ^ pd, dim], fun
        | [k, d] => ((value (Spec.gridPoint pd bounds (fun _ => r) k))[d]?).map .num
        | _ => none)] := by
  have hget : ∀ i < pd, (List.replicate pd r).getD i 0 = r := fun i hi => by
    rw [List.getD_eq_getElem?_getD, List.getElem?_replicate, if_pos hi]; rfl
  have hsize : (Spec.gridSize pd fun i => (List.replicate pd r).getD i 0) = r.toNat ^ pd := by
    unfold Spec.gridSize
    rw [List.map_congr_left (g := fun _ => r.toNat) (fun j hj => by simp only [hget j (List.mem_range.1 hj)])]
    simp
  have hpoint : ∀ k, Spec.gridPoint pd bounds (fun i => (List.replicate pd r).getD i 0) k = Spec.gridPoint pd bounds (fun _ => r) k := fun k => by
    unfold Spec.gridPoint
    refine List.map_congr_left fun i hi => ?_
    have hi' := List.mem_range.1 hi
    have : Grid.Spec.index (fun i => (List.replicate pd r).getD i 0) i k = Grid.Spec.index (fun _ => r) i k := by
      unfold Grid.Spec.index
      simp only [hget i hi']
      rw [List.map_congr_left (g := fun _ => r.toNat) (fun j hj => by simp only [hget j (by have := List.mem_range.1 hj; omega)])]
    rw [this]
    unfold Grid.Spec.coord
    simp only [hget i hi']
  have h := coreSample_returns (K := K) (dim := dim) (hw := hw) (nthreads := nthreads) value bounds hv ⟨List.replicate pd r, 0, [pd], [1]⟩ (List.replicate pd r)
    (by simp) (mapM_range_get _ _ _ (by simp) fun k hk => by simp [NdArray.raw]) (fun i hi => by rw [hget i hi]; exact hr) (by rw [hsize]; exact hsafe)
  rw [hsize] at h
  simp only [hpoint] at h
  exact h

/-- **C151, one resolution per direction** (what is missing: arrays of C++ `int` which are not contiguous, `sample_layout_violates`). `spline.sample(resolutions)` with
`para_dim` numbers, all at least two, returns their product many rows, row `k` is the value of the spline at point `k` of the grid. -/
theorem sample_partial (value : List K → List K) (bounds : ℕ → K) (hv : ∀ q, q.length = pd → (value q).length = dim) (a : NdArray ℤ) (rs : List ℤ)
    (hs : a.shape = [pd]) (hvalid : Valid a) (hc : a.cContiguous = true) (hrs : rs.length = pd ∧ ∀ i < pd, a.at [i] = rs[i]?) (h2 : ∀ r ∈ rs, 2 ≤ r)
    (hsafe : Safe hw (rs.map Int.toNat).prod nthreads) :
    Returns (sample value bounds pd dim hw (.many a) nthreads)
      [([(rs.map Int.toNat).prod, dim], fun
        | [k, d] => ((value (Spec.gridPoint pd bounds (fun i => rs.getD i 0) k))[d]?).map .num
        | _ => none)] := by
  have hf := contiguous_faithful hvalid hc
  have hsize : (Spec.gridSize pd fun i => rs.getD i 0) = (rs.map Int.toNat).prod := by
    unfold Spec.gridSize
    congr 1
    refine List.ext_getElem (by simp [hrs.1]) fun i h1 h2 => ?_
    simp only [List.length_map, List.length_range] at h1 h2
    simp only [List.getElem_map, List.getElem_range]
    rw [List.getD_eq_getElem?_getD, List.getElem?_eq_getElem h2, Option.getD_some]
  have h := coreSample_returns (K := K) (dim := dim) (hw := hw) (nthreads := nthreads) value bounds hv a rs (by simp [hs])
    (mapM_range_get _ _ _ hrs.1 fun k hk => by
      have := hf.2 [k] (by rw [hs]; exact List.Forall₂.cons hk List.Forall₂.nil)
      rw [hs] at this
      simp only [offset, List.prod_nil, Nat.mul_one, Nat.add_zero] at this
      rw [Nat.zero_mul, Nat.zero_add, this]
      exact hrs.2 k hk)
    (fun i hi => by
      rw [List.getD_eq_getElem?_getD, List.getElem?_eq_getElem (by omega), Option.getD_some]
      exact h2 _ (List.getElem_mem _)) (by rw [hsize]; exact hsafe)
  rw [hsize] at h
  unfold sample enforceLen
  simp only [hs, List.head?_cons, if_true, Option.bind_some]
  exact h

/-- A resolution below two raises. -/
theorem sample_rejects (value : List K → List K) (bounds : ℕ → K) (r : ℤ) (hpd : 0 < pd) (hr : r < 2) : sample value bounds pd dim hw (.one r) nthreads = none := by
  unfold sample enforceLen coreSample
  rw [Option.bind_some, if_pos (by simp), show NdArray.rawRow (⟨List.replicate pd r, 0, [pd], [1]⟩ : NdArray ℤ) pd 0 = some (List.replicate pd r) from
    mapM_range_get _ _ _ (by simp) fun k hk => by simp [NdArray.raw], Option.bind_some,
    (Grid.setUp_rejects_iff pd bounds _).2 ⟨0, hpd, by simp [hpd, hr]⟩]
  rfl

/-- **C151 for multipatches** with one resolution: `multipatch.sample(r)` with `r ≥ 2` returns `r ^ para_dim` rows for every patch, patch after patch; row `k` of patch `i` is
its value at point `k` of the grid between its own parametric bounds. -/
theorem multipatch_sample_partial (patches : List (Patch K)) (hv : ∀ p ∈ patches, ∀ q, q.length = pd → (p.value q).length = dim) (r : ℤ) (hr : 2 ≤ r) (n : ℕ) (hn : 1 ≤ n)
    (hne : patches ≠ []) (hsafe : Safe hw patches.length n) :
    Returns (multipatchSample patches pd dim hw (.one r) n)
      [([patches.length * r.toNat ^ pd, dim], fun
        | [k, d] => (patches[k / r.toNat ^ pd]?).bind fun p => ((p.value (Spec.gridPoint pd p.bounds (fun _ => r) (k % r.toNat ^ pd)))[d]?).map .num
        | _ => none)] := by
  unfold multipatchSample coreMultipatchSample
  simp only
  rw [if_neg (by omega)]
  obtain ⟨ts0, ht0, hf0⟩ := safe_chunks hsafe
  rw [ht0, Option.bind_some, hf0, if_pos (by simp)]
  have hN : 0 < r.toNat ^ pd := Nat.pow_pos (by omega)
  generalize hNe : r.toNat ^ pd = N at *
  have hlen : 0 < patches.length := List.length_pos_iff.2 hne
  obtain ⟨ts, ht, hperm⟩ := stridedThreads_perm hw (patches.length * N) n hn (Or.inl (Nat.mul_pos hlen hN))
  have hm : ∀ i, i ∈ ts.flatten ↔ i < patches.length * N := fun i => by rw [hperm.mem_iff, List.mem_range]
  have hpos : ∀ i < patches.length * N, i / N < patches.length := fun i hi => Nat.div_lt_of_lt_mul (by rwa [Nat.mul_comm])
  let dflt : Patch K := ⟨id, fun _ => 0⟩
  let pt : ℕ → List K := fun i => (patches.getD (i / N) dflt).value (Spec.gridPoint pd (patches.getD (i / N) dflt).bounds (fun _ => r) (i % N))
  have hl : ∀ i < patches.length * N, (pt i).length = dim := by
    intro i hi
    refine hv _ ?_ _ (gridPoint_length _ _ _)
    rw [List.getD_eq_getElem?_getD, List.getElem?_eq_getElem (hpos i hi)]
    exact List.getElem_mem _
  rw [ht, Option.bind_some, mapM_blocks ts (fun i hi => (hm i).1 hi) _ (fun i => put 0 (i * dim) ((pt i).map .num)) ?_, Option.map_some]
  · refine returns_of_blocks (fun tr hs => mem_blocks hm hs) [[dim]] (fun _ i k => ((pt i)[k]?).map .num) ?_ ?_ _ rfl ?_
    · intro o rest hr i hi k hk
      match o, hr with
      | 0, hr => cases hr; exact num_some (hl i hi) (by simpa using hk)
      | _ + 1, hr => simp at hr
    · intro i hi w
      rw [mem_put_num (hl i hi)]
      constructor
      · rintro ⟨k, x, hk, hx, rfl⟩; exact ⟨0, [dim], k, x, rfl, by simpa using hk, hx, by simp⟩
      · rintro ⟨o, rest, k, x, hr, hk, hx, rfl⟩
        match o, hr with
        | 0, hr => cases hr; exact ⟨k, x, by simpa using hk, hx, by simp⟩
        | _ + 1, hr => simp at hr
    · intro o rest hr shape e hse i hi idx hidx
      match o, hr, hse with
      | 0, hr, hse =>
        cases hr; cases hse
        have h3 := hpos i hi
        match idx, hidx with
        | [d], hidx => simp [offset, pt, List.getElem?_eq_getElem h3]
        | [], hidx => cases hidx
        | _ :: _ :: _, hidx => cases hidx with | cons _ h => cases h
      | _ + 1, hr, _ => simp at hr
  · intro i hi
    have h3 := hpos i hi
    obtain ⟨gp, hgp, -, hpt⟩ := Grid.sample_point_correct pd (patches[i / N]).bounds (fun _ => r) (fun _ _ => hr)
    rw [List.getElem?_eq_getElem h3, Option.bind_some, if_pos (by simpa using h3), Option.bind_some, hgp, Option.bind_some, hpt, Option.map_some, Nat.div_add_mod' i N]
    simp [pt, Spec.gridPoint, List.getElem?_eq_getElem h3]

/-- **C151, violated for multipatches with one resolution per direction.** Only the first number is used: whatever the others are, the result is the one for the first number
in all directions. -/
theorem multipatch_sample_first_violates (patches : List (Patch K)) (r : ℤ) (rest : List ℤ) :
    multipatchSample patches pd dim hw (.many (r :: rest)) nthreads = multipatchSample patches pd dim hw (.one r) nthreads := rfl

/-- For example, `multipatch.sample([2, 5])` of one surface returns 4 rows instead of 10. -/
theorem multipatch_sample_size_violates (p : Patch K) (hv : ∀ q, q.length = 2 → (p.value q).length = dim) :
    ∃ c, multipatchSample [p] 2 dim hw (.many [2, 5]) 1 = some c ∧ c.shapes = [[4, dim]] := by
  have hs : Safe hw ([p] : List (Patch K)).length ((1 : ℕ) : ℤ) := Or.inl (by simp [effective])
  obtain ⟨c, hc, hshape, -⟩ := multipatch_sample_partial (hw := hw) [p] (by simpa using hv) 2 (by omega) 1 (by omega) (by simp) hs
  exact ⟨c, hc, by simpa using hshape⟩

/-- **C151, violated for views.** The view `[5, 1, 5, 1][::2]` of C++ `int`s holds the resolutions `5, 5`; the numbers next to each other in memory are read, and the call raises. -/
theorem sample_layout_violates (value : List K → List K) (bounds : ℕ → K) : ∃ a : NdArray ℤ, Valid a ∧ a.shape = [2] ∧ a.at [0] = some 5 ∧ a.at [1] = some 5 ∧
    sample value bounds 2 dim hw (.many a) nthreads = none := by
  refine ⟨⟨[5, 1, 5, 1], 0, [2], [2]⟩, ⟨rfl, fun idx h => ?_⟩, rfl, rfl, rfl, ?_⟩
  · match idx, h with
    | [i], h =>
      cases h with
      | cons hi h =>
        have hi : i < 2 := hi
        interval_cases i <;> exact ⟨_, rfl⟩
    | [], h => cases h
    | _ :: _ :: _, h => cases h with | cons _ h => cases h
  · unfold sample enforceLen coreSample
    simp only [List.head?_cons, if_true, Option.bind_some]
    rw [if_pos (by simp), show NdArray.rawRow (⟨[5, 1, 5, 1], 0, [2], [2]⟩ : NdArray ℤ) 2 0 = some [5, 1] from rfl, Option.bind_some,
      (Grid.setUp_rejects_iff 2 bounds _).2 ⟨1, by omega, by simp⟩]
    rfl

/-- Six points of a surface over `[0, 1] × [0, 2]`, on two threads. -/
example : Returns (sample (K := ℚ) (fun q => q) (fun i => if i < 2 then 0 else if i = 2 then 1 else 2) 2 2 8 (.many ⟨[3, 2], 0, [2], [1]⟩) 2)
    [([6, 2], fun
      | [k, d] => ((Spec.gridPoint (K := ℚ) 2 (fun i => if i < 2 then 0 else if i = 2 then 1 else 2) (fun i => [3, 2].getD i 0) k)[d]?).map .num
      | _ => none)] := by
  refine sample_partial (K := ℚ) _ _ (fun q h => h) _ [3, 2] rfl ⟨rfl, fun idx h => ?_⟩ rfl ⟨rfl, fun i hi => ?_⟩ (by decide) (Or.inr ?_)
  · match idx, h with
    | [i], h =>
      cases h with
      | cons hi h =>
        have hi : i < 2 := hi
        interval_cases i <;> exact ⟨_, rfl⟩
    | [], h => cases h
    | _ :: _ :: _, h => cases h with | cons _ h => cases h
  · interval_cases i <;> rfl
  · decide

end Splinepy.Sample
