import Verif.Model.Queries
import Verif.Props.Threads

/-!
Lemmas about arrays in memory and about the loops of batched queries.
-/
namespace Splinepy.Queries
open Splinepy.Threads Splinepy.Spec

namespace Spec

/-- An index of an array of the given shape. -/
def InShape (shape idx : List ℕ) : Prop := List.Forall₂ (· < ·) idx shape

/-- Position of an index in an array whose elements are stored one after the other, last index fastest. -/
def offset : List ℕ → List ℕ → ℕ
  | _ :: ds, i :: is => i * ds.prod + offset ds is
  | _, _ => 0

/-- The array is a proper numpy array: one stride per axis, and all of its elements exist. -/
def Valid {α : Type*} (a : NdArray α) : Prop :=
  a.shape.length = a.strides.length ∧ ∀ idx, InShape a.shape idx → ∃ x, a.at idx = some x

/-- `r` is row `i` of a two dimensional array, as Python sees it. -/
def Row {α : Type*} (a : NdArray α) (i : ℕ) (r : List α) : Prop :=
  ∃ n w, a.shape = [n, w] ∧ i < n ∧ r.length = w ∧ ∀ k < w, a.at [i, k] = r[k]?

/-- Number of threads and queries for which no thread leaves the arrays (exactly these, see `Threads.in_range_iff`). -/
def Safe (hw n : ℕ) (nthreads : ℤ) : Prop :=
  effective hw nthreads ≤ 1 ∨
    (0 < n ∧ (min n (effective hw nthreads).toNat - 1) * ceilDiv n (min n (effective hw nthreads).toNat) ≤ n)

/-- The call returns arrays with these shapes and entries, whatever the schedule of the threads, and writes nothing else. -/
def Returns {K : Type*} (call : Option (Call K)) (arrays : List (List ℕ × (List ℕ → Option (Value K)))) : Prop :=
  ∃ c, call = some c ∧ c.shapes = arrays.map Prod.fst ∧ ∀ trace, Schedule c.threads trace →
    (∀ o shape entry, arrays[o]? = some (shape, entry) → ∀ idx, InShape shape idx →
      after trace (o, offset shape idx) = entry idx ∧ (entry idx).isSome) ∧
    (∀ w ∈ trace, ∃ shape entry, arrays[w.1.1]? = some (shape, entry) ∧ w.1.2 < shape.prod)

end Spec

open Spec

theorem offset_lt {shape idx : List ℕ} (h : InShape shape idx) : offset shape idx < shape.prod := by
  induction h with
  | nil => simp [offset]
  | @cons i d is ds hi h ih =>
    simp only [offset, List.prod_cons]
    calc i * ds.prod + offset ds is < i * ds.prod + ds.prod := by omega
      _ = (i + 1) * ds.prod := by ring
      _ ≤ d * ds.prod := Nat.mul_le_mul_right _ hi

theorem loop_append (l : List (ℕ × ℤ)) (x : ℕ × ℤ) (sd : ℤ) :
    contiguousLoop (l ++ [x]) sd = (contiguousLoop l sd && contiguousLoop [x] (sd * ((l.map Prod.fst).prod : ℕ))) := by
  induction l generalizing sd with
  | nil => simp [contiguousLoop]
  | cons y l ih =>
    obtain ⟨d, s⟩ := y
    simp only [List.cons_append, contiguousLoop]
    split
    · next h => subst h; rw [ih]; simp [contiguousLoop]
    · rw [ih, Bool.and_assoc]
      have : sd * (d : ℤ) * ((l.map Prod.fst).prod : ℕ) = sd * ((((d, s) :: l).map Prod.fst).prod : ℕ) := by
        simp [mul_assoc]
      rw [this]
      rfl

theorem loop_offset {shape idx : List ℕ} (h : InShape shape idx) (strides : List ℤ) (hl : shape.length = strides.length)
    (hc : contiguousLoop (shape.zip strides).reverse 1 = true) :
    ((idx.zip strides).map (fun p => (p.1 : ℤ) * p.2)).sum = (offset shape idx : ℕ) := by
  induction h generalizing strides with
  | nil => simp [offset]
  | @cons i d is ds hi h ih =>
    match strides, hl with
    | s :: ss, hl =>
      simp only [List.length_cons, Nat.add_right_cancel_iff] at hl
      simp only [List.zip_cons_cons, List.reverse_cons, loop_append, Bool.and_eq_true] at hc
      simp only [List.zip_cons_cons, List.map_cons, List.sum_cons, offset, Nat.cast_add, Nat.cast_mul]
      rw [ih ss hl hc.1]
      congr 1
      have hp : ((ds.zip ss).reverse.map Prod.fst).prod = ds.prod := by
        rw [List.map_reverse, List.prod_reverse, List.map_fst_zip (by omega)]
      have h2 := hc.2
      rw [hp] at h2
      simp only [contiguousLoop, Bool.and_true, one_mul] at h2
      split at h2
      · next h1 => subst h1; have : i = 0 := by omega
                   subst this; simp
      · rw [beq_iff_eq] at h2; rw [h2]

/-- In a C-contiguous array, the element at an index is found behind the pointer at its row-major position. -/
theorem at_eq_raw {α : Type*} {a : NdArray α} (hl : a.shape.length = a.strides.length) (hc : a.cContiguous = true) {idx : List ℕ}
    (h : InShape a.shape idx) : a.raw (offset a.shape idx) = a.at idx := by
  have hz : ¬ (a.shape.contains 0 = true) := by
    intro hz
    rw [List.contains_iff_mem] at hz
    unfold InShape at h
    have : ∀ {l m : List ℕ}, List.Forall₂ (· < ·) l m → 0 ∉ m := by
      intro l m hf
      induction hf with
      | nil => simp
      | cons h _ ih => simp only [List.mem_cons, not_or]; exact ⟨by omega, ih⟩
    exact this h hz
  unfold NdArray.cContiguous at hc
  rw [if_neg hz] at hc
  unfold NdArray.at NdArray.raw
  rw [loop_offset h a.strides hl hc]
  have : ¬ ((a.ptr : ℤ) + (offset a.shape idx : ℕ) < 0) := by omega
  simp only [this, if_false]
  congr 1

theorem indices_get {shape idx : List ℕ} (h : InShape shape idx) : (indices shape)[offset shape idx]? = some idx := by
  have hlen : ∀ s : List ℕ, (indices s).length = s.prod := by
    intro s
    induction s with
    | nil => rfl
    | cons d ds ih => simp [indices, List.length_flatMap, ih]
  induction h with
  | nil => rfl
  | @cons i d is ds hi h ih =>
    simp only [indices, offset]
    have ho := offset_lt h
    have key : ∀ (m : ℕ) (f : ℕ → List (List ℕ)) (L : ℕ), (∀ t, (f t).length = L) → ∀ i < m, ∀ k < L,
        ((List.range m).flatMap f)[i * L + k]? = (f i)[k]? := by
      intro m f L hf
      induction m with
      | zero => intro i hi; omega
      | succ m ihm =>
        intro i hi k hk
        have hl : ((List.range m).flatMap f).length = m * L := by
          rw [List.length_flatMap]; simp [hf]
        rw [List.range_succ, List.flatMap_append]
        by_cases him : i < m
        · rw [List.getElem?_append_left, ihm i him k hk]
          rw [hl]
          calc i * L + k < i * L + L := by omega
            _ = (i + 1) * L := by ring
            _ ≤ m * L := Nat.mul_le_mul_right _ him
        · have : i = m := by omega
          subst this
          rw [List.getElem?_append_right (by rw [hl]; omega), hl]
          simp
    rw [key d (fun i => (indices ds).map (i :: ·)) ds.prod (fun t => by simp [hlen]) i hi _ ho]
    rw [List.getElem?_map, ih]
    rfl

theorem mem_indices {shape idx : List ℕ} (h : idx ∈ indices shape) : InShape shape idx := by
  induction shape generalizing idx with
  | nil => simp only [indices, List.mem_singleton] at h; subst h; exact List.Forall₂.nil
  | cons d ds ih =>
    simp only [indices, List.mem_flatMap, List.mem_range, List.mem_map] at h
    obtain ⟨i, hi, is, his, rfl⟩ := h
    exact List.Forall₂.cons hi (ih his)

/-- `b` holds the elements of `a`, one after the other. -/
def Faithful {α : Type*} (b a : NdArray α) : Prop :=
  b.shape = a.shape ∧ ∀ idx, InShape a.shape idx → b.raw (offset a.shape idx) = a.at idx

theorem contiguous_faithful {α : Type*} {a : NdArray α} (h : Valid a) (hc : a.cContiguous = true) : Faithful a a :=
  ⟨rfl, fun _ hi => at_eq_raw h.1 hc hi⟩

theorem enforce_faithful {α : Type*} {a : NdArray α} (h : Valid a) : ∃ b, enforceContiguous a = some b ∧ Faithful b a := by
  unfold enforceContiguous
  by_cases hc : a.cContiguous = true
  · rw [if_pos hc]
    exact ⟨a, rfl, contiguous_faithful h hc⟩
  · rw [if_neg hc]
    unfold NdArray.ascontiguousarray
    obtain ⟨m, hm, hf⟩ := mapM_some_of_forall a.at (indices a.shape) (fun idx hi => h.2 idx (mem_indices hi))
    rw [hm]
    refine ⟨_, rfl, rfl, fun idx hi => ?_⟩
    have hg := indices_get hi
    unfold NdArray.raw
    simp only [Nat.zero_add]
    rw [List.forall₂_iff_get] at hf
    obtain ⟨hl, hf⟩ := hf
    obtain ⟨hlt, hget⟩ := List.getElem?_eq_some_iff.1 hg
    have := hf _ hlt (hl ▸ hlt)
    simp only [List.get_eq_getElem, hget] at this
    rw [this]
    exact List.getElem?_eq_getElem _

theorem mapM_range_eq {α : Type*} {f : ℕ → Option α} {w : ℕ} {r : List α} (hl : r.length = w) (h : ∀ k < w, f k = r[k]?) :
    (List.range w).mapM f = some r := by
  subst hl
  obtain ⟨m, hm, hf⟩ := mapM_some_of_forall f (List.range r.length)
    (fun k hk => by
      rw [List.mem_range] at hk
      exact ⟨r[k], by rw [h k hk, List.getElem?_eq_getElem hk]⟩)
  rw [hm]
  congr 1
  rw [List.forall₂_iff_get] at hf
  obtain ⟨hlen, hf⟩ := hf
  simp only [List.length_range] at hlen
  apply List.ext_getElem hlen.symm
  intro k h1 h2
  have := hf k (by simpa using h2) h1
  simp only [List.get_eq_getElem, List.getElem_range] at this
  rw [h k h2, List.getElem?_eq_getElem h2, Option.some_inj] at this
  exact this.symm

theorem faithful_row {α : Type*} {b a : NdArray α} (h : Faithful b a) {n w i : ℕ} {r : List α} (hs : a.shape = [n, w])
    (hr : Row a i r) : b.rawRow w i = some r := by
  obtain ⟨n', w', hs', hi, hl, hk⟩ := hr
  rw [hs] at hs'
  simp only [List.cons.injEq, and_true] at hs'
  obtain ⟨rfl, rfl⟩ := hs'
  apply mapM_range_eq hl
  intro k hkw
  have := h.2 [i, k] (by rw [hs]; exact List.Forall₂.cons hi (List.Forall₂.cons hkw List.Forall₂.nil))
  rw [hs] at this
  simpa [offset, hk k hkw] using this

theorem after_eq {K : Type*} {tr : List (Cell × Value K)} {c : Cell} {v : Value K} (h1 : ∃ w ∈ tr, w.1 = c)
    (h2 : ∀ w ∈ tr, w.1 = c → w.2 = v) : after tr c = some v := by
  induction tr with
  | nil => simp at h1
  | cons w ws ih =>
    rw [after]
    by_cases h : ∃ w ∈ ws, w.1 = c
    · rw [ih h (fun w hw => h2 w (List.mem_cons_of_mem _ hw))]; rfl
    · have hn : after ws c = none := by
        clear ih h1 h2
        induction ws with
        | nil => rfl
        | cons u us ih =>
          rw [after, ih (fun ⟨x, hx, hc⟩ => h ⟨x, List.mem_cons_of_mem _ hx, hc⟩)]
          have : c ≠ u.1 := fun hc => h ⟨u, by simp, hc.symm⟩
          simp [this]
      rw [hn]
      obtain ⟨w', hw', hc⟩ := h1
      rcases List.mem_cons.1 hw' with rfl | hw'
      · simp [hc, h2 w' (by simp) hc]
      · exact absurd ⟨w', hw', hc⟩ h

theorem safe_chunks {hw n : ℕ} {nthreads : ℤ} (h : Safe hw n nthreads) :
    ∃ ts, chunkThreads hw n nthreads = some ts ∧ ts.flatten = List.range n := by
  by_cases h1 : effective hw nthreads ≤ 1
  · exact ⟨_, single_thread_eq_range hw n nthreads h1, by simp⟩
  · obtain ⟨h2, h3⟩ := h.resolve_left h1
    obtain ⟨ts, ht, _, hf⟩ := chunks_eq_range hw n nthreads _ rfl (by omega) h2
    refine ⟨ts, ht, ?_⟩
    rw [hf]; congr 1; omega

theorem mapM_blocks {W : Type*} {n : ℕ} (ts : List (List ℕ)) (hts : ∀ i ∈ ts.flatten, i < n) (body : ℕ → Option (List W))
    (ws : ℕ → List W) (h : ∀ i < n, body i = some (ws i)) :
    ts.mapM (fun is => (is.mapM body).map List.flatten) = some (ts.map (fun is => (is.map ws).flatten)) := by
  apply mapM_eq_some_map
  intro is his
  rw [mapM_eq_some_map body ws is (fun i hi => h i (hts i (List.mem_flatten.2 ⟨is, his, hi⟩)))]
  rfl

theorem mem_blocks {W : Type*} {n : ℕ} {ts : List (List ℕ)} (hts : ∀ i, i ∈ ts.flatten ↔ i < n) {ws : ℕ → List W} {tr : List W}
    (hs : Schedule (ts.map (fun is => (is.map ws).flatten)) tr) (w : W) : w ∈ tr ↔ ∃ i < n, w ∈ ws i := by
  rw [(schedule_perm hs).mem_iff]
  constructor
  · intro h
    obtain ⟨l, hl, hw⟩ := List.mem_flatten.1 h
    obtain ⟨is, his, rfl⟩ := List.mem_map.1 hl
    obtain ⟨b, hb, hw⟩ := List.mem_flatten.1 hw
    obtain ⟨i, hi, rfl⟩ := List.mem_map.1 hb
    exact ⟨i, (hts i).1 (List.mem_flatten.2 ⟨is, his, hi⟩), hw⟩
  · rintro ⟨i, hi, hw⟩
    obtain ⟨is, his, hi⟩ := List.mem_flatten.1 ((hts i).2 hi)
    exact List.mem_flatten.2 ⟨_, List.mem_map.2 ⟨is, his, rfl⟩, List.mem_flatten.2 ⟨_, List.mem_map.2 ⟨i, hi, rfl⟩, hw⟩⟩

theorem fill_spec {W : Type*} {hw n : ℕ} {nthreads : ℤ} (hsafe : Safe hw n nthreads) (body : ℕ → Option (List W))
    (ws : ℕ → List W) (h : ∀ i < n, body i = some (ws i)) :
    ∃ ts, fill hw n nthreads body = some ts ∧ ∀ tr, Schedule ts tr → ∀ w, w ∈ tr ↔ ∃ i < n, w ∈ ws i := by
  obtain ⟨ts, ht, hf⟩ := safe_chunks hsafe
  have hm : ∀ i, i ∈ ts.flatten ↔ i < n := fun i => by rw [hf, List.mem_range]
  refine ⟨ts.map (fun is => (is.map ws).flatten), ?_, fun tr hs w => mem_blocks hm hs w⟩
  unfold fill
  rw [ht]
  exact mapM_blocks ts (fun i hi => (hm i).1 hi) body ws h

theorem mem_put {K : Type*} {array base : ℕ} {vals : List (Value K)} {w : Cell × Value K} :
    w ∈ put array base vals ↔ ∃ k x, vals[k]? = some x ∧ w = ((array, base + k), x) := by
  unfold put
  rw [List.mem_map]
  constructor
  · rintro ⟨⟨x, k⟩, h, rfl⟩
    exact ⟨k, x, List.mem_zipIdx_iff_getElem?.1 h, rfl⟩
  · rintro ⟨k, x, h, rfl⟩
    exact ⟨(x, k), List.mem_zipIdx_iff_getElem?.2 h, rfl⟩

/-- Bookkeeping shared by all wrappers: if the writes for row `i` are, for every returned array `o`, the block number `i` of
`width o` elements, the returned arrays have these entries. -/
theorem returns_of_blocks {K : Type*} {threads : List (List (Cell × Value K))} {n : ℕ} {ws : ℕ → List (Cell × Value K)}
    (hmem : ∀ tr, Schedule threads tr → ∀ w, w ∈ tr ↔ ∃ i < n, w ∈ ws i)
    (rests : List (List ℕ)) (B : ℕ → ℕ → ℕ → Option (Value K))
    (hB : ∀ o rest, rests[o]? = some rest → ∀ i < n, ∀ k < rest.prod, (B o i k).isSome)
    (hws : ∀ i < n, ∀ w, w ∈ ws i ↔
      ∃ o rest k x, rests[o]? = some rest ∧ k < rest.prod ∧ B o i k = some x ∧ w = ((o, i * rest.prod + k), x))
    (arrays : List (List ℕ × (List ℕ → Option (Value K))))
    (ha : arrays.map Prod.fst = rests.map (n :: ·))
    (he : ∀ o rest, rests[o]? = some rest → ∀ shape entry, arrays[o]? = some (shape, entry) →
      ∀ i < n, ∀ idx, InShape rest idx → entry (i :: idx) = B o i (offset rest idx)) :
    Returns (some ⟨rests.map (n :: ·), threads⟩) arrays := by
  refine ⟨_, rfl, ha.symm, fun tr hs => ⟨?_, ?_⟩⟩
  · intro o shape entry ho idx hidx
    have h1 : (arrays.map Prod.fst)[o]? = some shape := by rw [List.getElem?_map, ho]; rfl
    rw [ha, List.getElem?_map] at h1
    obtain ⟨rest, hr, rfl⟩ := Option.map_eq_some_iff.1 h1
    match idx, hidx with
    | i :: idx, hidx =>
      obtain ⟨hi, hidx⟩ := List.forall₂_cons.1 hidx
      have hlt := offset_lt hidx
      have hsome := hB o rest hr i hi _ hlt
      obtain ⟨x, hx⟩ := Option.isSome_iff_exists.1 hsome
      rw [he o rest hr _ _ ho i hi idx hidx, hx]
      refine ⟨after_eq ⟨((o, i * rest.prod + offset rest idx), x), ?_, rfl⟩ ?_, rfl⟩
      · rw [hmem tr hs]
        exact ⟨i, hi, (hws i hi _).2 ⟨o, rest, _, x, hr, hlt, hx, rfl⟩⟩
      · intro w hw hc
        rw [hmem tr hs] at hw
        obtain ⟨i', hi', hw⟩ := hw
        obtain ⟨o', rest', k, y, hr', hk, hy, rfl⟩ := (hws i' hi' _).1 hw
        simp only [offset, Prod.mk.injEq] at hc
        obtain ⟨rfl, hc⟩ := hc
        rw [hr, Option.some_inj] at hr'
        subst hr'
        have hpos : 0 < rest.prod := by omega
        have e1 : i' = i := by
          have := congrArg (· / rest.prod) hc
          simp only [Nat.mul_comm _ rest.prod, Nat.mul_add_div hpos, Nat.div_eq_of_lt hk, Nat.div_eq_of_lt hlt] at this
          omega
        subst e1
        have e2 : k = offset rest idx := by omega
        subst e2
        rw [hx, Option.some_inj] at hy
        exact hy.symm
  · intro w hw
    rw [hmem tr hs] at hw
    obtain ⟨i, hi, hw⟩ := hw
    obtain ⟨o, rest, k, y, hr, hk, -, rfl⟩ := (hws i hi _).1 hw
    have h1 : (arrays.map Prod.fst)[o]? = some (n :: rest) := by rw [ha, List.getElem?_map, hr]; rfl
    rw [List.getElem?_map] at h1
    obtain ⟨⟨shape, entry⟩, ho, hse⟩ := Option.map_eq_some_iff.1 h1
    simp only at hse
    subst hse
    refine ⟨_, entry, ho, ?_⟩
    simp only [List.prod_cons]
    calc i * rest.prod + k < i * rest.prod + rest.prod := by omega
      _ = (i + 1) * rest.prod := by ring
      _ ≤ n * rest.prod := Nat.mul_le_mul_right _ hi

end Splinepy.Queries
