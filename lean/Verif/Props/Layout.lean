import Verif.Model.Layout
import Verif.Lemma.Queries

/-!
C125: calls work with the elements of the arrays they are given, whatever the layout of the arrays in memory.
-/
namespace Splinepy.Layout
open Splinepy.Queries Splinepy.Queries.Spec

/-- `l` lists the elements of `a` as Python sees them, last index fastest. -/
def Spec.Elements {K : Type*} (a : NdArray K) (l : List K) : Prop :=
  l.length = a.shape.prod ∧ ∀ idx, InShape a.shape idx → l[offset a.shape idx]? = a.at idx

/-- A conversion of the dtype: it keeps the shape, the elements and C-contiguity (numpy). -/
def Spec.Conversion {K : Type*} (cast : NdArray K → Option (NdArray K)) : Prop :=
  ∀ a, Valid a → ∃ b, cast a = some b ∧ Valid b ∧ b.shape = a.shape ∧ (∀ idx, InShape a.shape idx → b.at idx = a.at idx) ∧
    (a.cContiguous = true → b.cContiguous = true)

theorem conversion_id {K : Type*} : Spec.Conversion (some : NdArray K → Option (NdArray K)) :=
  fun a h => ⟨a, rfl, h, rfl, fun _ _ => rfl, fun h => h⟩

theorem offset_surj (shape : List ℕ) (k : ℕ) (hk : k < shape.prod) : ∃ idx, InShape shape idx ∧ offset shape idx = k := by
  induction shape generalizing k with
  | nil => exact ⟨[], List.Forall₂.nil, by simp at hk; simp [offset, hk]⟩
  | cons d ds ih =>
    rw [List.prod_cons] at hk
    have hp : 0 < ds.prod := Nat.pos_of_ne_zero (fun h => by rw [h] at hk; simp at hk)
    obtain ⟨idx, h1, h2⟩ := ih (k % ds.prod) (Nat.mod_lt _ hp)
    refine ⟨k / ds.prod :: idx, List.Forall₂.cons (Nat.div_lt_of_lt_mul (by rwa [Nat.mul_comm] at hk)) h1, ?_⟩
    simp only [offset, h2]
    rw [Nat.mul_comm]
    exact Nat.div_add_mod k ds.prod

/-- Every proper array has a list of elements, exactly one. -/
theorem elements_unique {K : Type*} (a : NdArray K) (l l' : List K) (h : Spec.Elements a l) (h' : Spec.Elements a l') : l = l' := by
  apply List.ext_getElem (h.1.trans h'.1.symm)
  intro k h1 h2
  obtain ⟨idx, hi, ho⟩ := offset_surj a.shape k (h.1 ▸ h1)
  have e1 := h.2 idx hi
  have e2 := h'.2 idx hi
  rw [ho] at e1 e2
  have := e1.trans e2.symm
  rwa [List.getElem?_eq_getElem h1, List.getElem?_eq_getElem h2, Option.some_inj] at this

theorem read_contiguous {K : Type*} {a : NdArray K} (hv : Valid a) (hc : a.cContiguous = true) :
    ∃ l, (List.range a.shape.prod).mapM a.raw = some l ∧ Spec.Elements a l := by
  obtain ⟨l, hl, hf⟩ := Threads.mapM_some_of_forall a.raw (List.range a.shape.prod) (fun k hk => by
    obtain ⟨idx, hi, ho⟩ := offset_surj a.shape k (List.mem_range.1 hk)
    obtain ⟨x, hx⟩ := hv.2 idx hi
    exact ⟨x, by rw [← ho, at_eq_raw hv.1 hc hi, hx]⟩)
  refine ⟨l, hl, ?_⟩
  rw [List.forall₂_iff_get] at hf
  obtain ⟨hlen, hf⟩ := hf
  simp only [List.length_range] at hlen
  refine ⟨hlen.symm, fun idx hi => ?_⟩
  have ho := offset_lt hi
  have := hf (offset a.shape idx) (by simpa using ho) (by omega)
  simp only [List.get_eq_getElem, List.getElem_range] at this
  rw [← at_eq_raw hv.1 hc hi, this]
  exact List.getElem?_eq_getElem _

theorem cStrides_length (shape : List ℕ) : (cStrides shape).length = shape.length := by
  induction shape with
  | nil => rfl
  | cons d ds ih => simp [cStrides, ih]

theorem loop_cStrides (shape : List ℕ) : contiguousLoop (shape.zip (cStrides shape)).reverse 1 = true := by
  induction shape with
  | nil => rfl
  | cons d ds ih =>
    simp only [cStrides, List.zip_cons_cons, List.reverse_cons]
    rw [loop_append, ih]
    have hp : ((ds.zip (cStrides ds)).reverse.map Prod.fst).prod = ds.prod := by
      rw [List.map_reverse, List.prod_reverse, List.map_fst_zip (by rw [cStrides_length])]
    rw [hp]
    simp [contiguousLoop]

/-- `ascontiguousarray` returns a proper, C-contiguous array with the same elements. -/
theorem ascontiguous_spec {K : Type*} {a : NdArray K} (hv : Valid a) :
    ∃ b, a.ascontiguousarray = some b ∧ Valid b ∧ b.shape = a.shape ∧ (∀ idx, InShape a.shape idx → b.at idx = a.at idx) ∧
      b.cContiguous = true := by
  unfold NdArray.ascontiguousarray
  obtain ⟨m, hm, hf⟩ := Threads.mapM_some_of_forall a.at (indices a.shape) (fun idx hi => hv.2 idx (mem_indices hi))
  have hc : (⟨m, 0, a.shape, cStrides a.shape⟩ : NdArray K).cContiguous = true := by
    unfold NdArray.cContiguous
    simp only [loop_cStrides, ite_self]
  have hl : (⟨m, 0, a.shape, cStrides a.shape⟩ : NdArray K).shape.length = (⟨m, 0, a.shape, cStrides a.shape⟩ : NdArray K).strides.length :=
    (cStrides_length _).symm
  have hat : ∀ idx, InShape a.shape idx → (⟨m, 0, a.shape, cStrides a.shape⟩ : NdArray K).at idx = a.at idx := by
    intro idx hi
    rw [← at_eq_raw hl hc hi]
    have hg := indices_get hi
    unfold NdArray.raw
    simp only [Nat.zero_add]
    rw [List.forall₂_iff_get] at hf
    obtain ⟨hl, hf⟩ := hf
    obtain ⟨hlt, hget⟩ := List.getElem?_eq_some_iff.1 hg
    have := hf _ hlt (hl ▸ hlt)
    simp only [List.get_eq_getElem, hget] at this
    rw [this]
    exact List.getElem?_eq_getElem _
  rw [hm]
  exact ⟨_, rfl, ⟨hl, fun idx hi => by rw [hat idx hi]; exact hv.2 idx hi⟩, rfl, hat, hc⟩

theorem elements_congr {K : Type*} {a b : NdArray K} {l : List K} (hs : b.shape = a.shape)
    (hat : ∀ idx, InShape a.shape idx → b.at idx = a.at idx) (h : Spec.Elements b l) : Spec.Elements a l := by
  refine ⟨by rw [h.1, hs], fun idx hi => ?_⟩
  rw [← hat idx hi, ← hs]
  exact h.2 idx (hs ▸ hi)

theorem numbers_contiguous {K : Type*} {cast : NdArray K → Option (NdArray K)} (hcast : Spec.Conversion cast) {a b : NdArray K}
    (hb : Valid b) (hc : b.cContiguous = true) (hs : b.shape = a.shape) (hat : ∀ idx, InShape a.shape idx → b.at idx = a.at idx) :
    ∃ l, ((cast b).bind (fun c => (List.range c.shape.prod).mapM c.raw)) = some l ∧ Spec.Elements a l := by
  obtain ⟨c, h1, h2, h3, h4, h5⟩ := hcast b hb
  obtain ⟨l, hl, he⟩ := read_contiguous h2 (h5 hc)
  refine ⟨l, by rw [h1]; exact hl, ?_⟩
  exact elements_congr hs hat (elements_congr h3 h4 he)

/-- The calls which look at the layout. -/
def Spec.careful : List Api := [.construct, .insertKnots, .removeKnots, .insertionMatrix, .derivativeSpline, .boundaries]

/-- C125 for these calls: they work with the elements of the array, for every shape, strides and content. -/
theorem careful_reads_elements {K R : Type*} (cast : NdArray K → Option (NdArray K)) (hcast : Spec.Conversion cast) (api : Api)
    (ha : api ∈ Spec.careful) (a : NdArray K) (hv : Valid a) (f : List K → R) :
    ∃ l, Spec.Elements a l ∧ call cast api f a = some (f l) := by
  have key : ∃ b, handOver api a = some b ∧ Valid b ∧ b.shape = a.shape ∧ (∀ idx, InShape a.shape idx → b.at idx = a.at idx) ∧
      b.cContiguous = true := by
    have henf : ∃ b, enforceContiguous a = some b ∧ Valid b ∧ b.shape = a.shape ∧
        (∀ idx, InShape a.shape idx → b.at idx = a.at idx) ∧ b.cContiguous = true := by
      unfold enforceContiguous
      by_cases hc : a.cContiguous = true
      · rw [if_pos hc]; exact ⟨a, rfl, hv, rfl, fun _ _ => rfl, hc⟩
      · rw [if_neg hc]; exact ascontiguous_spec hv
    cases api with
    | construct => exact henf
    | insertKnots => exact henf
    | removeKnots => exact henf
    | insertionMatrix => exact henf
    | derivativeSpline => exact henf
    | boundaries => exact ascontiguous_spec hv
    | _ => simp [Spec.careful] at ha
  obtain ⟨b, h1, h2, h3, h4, h5⟩ := key
  obtain ⟨l, hl, he⟩ := numbers_contiguous hcast h2 h5 h3 h4
  refine ⟨l, he, ?_⟩
  unfold call numbers
  rw [h1, Option.bind_some, hl]; rfl

/-- C125 for all calls and C-contiguous arrays. Missing: other arrays, see `strided_violates`. -/
theorem contiguous_reads_elements_partial {K R : Type*} (cast : NdArray K → Option (NdArray K)) (hcast : Spec.Conversion cast) (api : Api)
    (a : NdArray K) (hv : Valid a) (hc : a.cContiguous = true) (f : List K → R) :
    ∃ l, Spec.Elements a l ∧ call cast api f a = some (f l) := by
  by_cases ha : api ∈ Spec.careful
  · exact careful_reads_elements cast hcast api ha a hv f
  · have h1 : handOver api a = some a := by
      cases api <;> first | rfl | simp [Spec.careful] at ha
    obtain ⟨l, hl, he⟩ := numbers_contiguous (a := a) hcast hv hc rfl (fun _ _ => rfl)
    refine ⟨l, he, ?_⟩
    unfold call numbers
    rw [h1, Option.bind_some, hl]; rfl

/-- Every second element of three numbers. -/
def everySecond {K : Type*} (x y z : K) : NdArray K := ⟨[x, y, z], 0, [2], [2]⟩

theorem everySecond_valid {K : Type*} (x y z : K) : Valid (everySecond x y z) ∧ Spec.Elements (everySecond x y z) [x, z] := by
  have key : ∀ idx, InShape [2] idx → idx = [0] ∨ idx = [1] := by
    intro idx h
    cases h with
    | cons h1 h2 => cases h2; rename_i i; have : i = 0 ∨ i = 1 := by omega
                    rcases this with rfl | rfl <;> simp
  refine ⟨⟨rfl, fun idx h => ?_⟩, rfl, fun idx h => ?_⟩
  · rcases key idx h with rfl | rfl
    · exact ⟨x, rfl⟩
    · exact ⟨z, rfl⟩
  · rcases key idx h with rfl | rfl <;> rfl

/-- C125 is violated by all other calls: an array with the elements `x, z` is taken for `x, y`, where `y` is whatever lies between them in
memory. (No conversion of the dtype.) -/
theorem strided_violates {K R : Type*} (api : Api) (ha : api ∉ Spec.careful) (f : List K → R) (x y z : K) :
    Valid (everySecond x y z) ∧ Spec.Elements (everySecond x y z) [x, z] ∧ call some api f (everySecond x y z) = some (f [x, y]) := by
  refine ⟨(everySecond_valid x y z).1, (everySecond_valid x y z).2, ?_⟩
  cases api <;> first | rfl | simp [Spec.careful] at ha

/-- The calls for which C125 holds are exactly the careful ones. -/
theorem layout_independent_iff (api : Api) :
    (∀ (a : NdArray ℤ) (l : List ℤ), Valid a → Spec.Elements a l → call some api id a = some l) ↔ api ∈ Spec.careful := by
  constructor
  · intro h
    by_contra ha
    obtain ⟨hv, he, hc⟩ := strided_violates api ha (id : List ℤ → List ℤ) 0 5 1
    rw [h _ _ hv he] at hc
    simp at hc
  · intro ha a l hv he
    obtain ⟨l', he', hc⟩ := careful_reads_elements some conversion_id api ha a hv (id : List ℤ → List ℤ)
    rw [hc, elements_unique a l l' he he']; rfl

/-- non-vacuity: a transposed array of control points is a proper array, not C-contiguous, and read correctly by the constructor -/
example : Valid (⟨[1, 2, 3, 4, 5, 6], 0, [3, 2], [1, 3]⟩ : NdArray ℤ) ∧
    (⟨[1, 2, 3, 4, 5, 6], 0, [3, 2], [1, 3]⟩ : NdArray ℤ).cContiguous = false ∧
    call some .construct id (⟨[1, 2, 3, 4, 5, 6], 0, [3, 2], [1, 3]⟩ : NdArray ℤ) = some [1, 4, 2, 5, 3, 6] := by
  refine ⟨⟨rfl, fun idx h => ?_⟩, by decide, by decide⟩
  cases h with
  | cons h1 h2 =>
    cases h2 with
    | cons h2 h3 =>
      cases h3
      rename_i i j
      have hi : i = 0 ∨ i = 1 ∨ i = 2 := by omega
      have hj : j = 0 ∨ j = 1 := by omega
      rcases hi with rfl | rfl | rfl <;> rcases hj with rfl | rfl <;> exact ⟨_, rfl⟩

end Splinepy.Layout
