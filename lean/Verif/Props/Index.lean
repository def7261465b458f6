import Verif.Model.Index
import Verif.Lemma.Product
import Mathlib.Data.List.Pairwise

/-!
C38 (cartesian product), C39 (multi index), C54 (matrix from supports).
`Spec.firstFastest`/`Spec.lastFastest` are in `Verif/Spec/Product.lean`.
-/
namespace Splinepy.Index
open Splinepy.Spec

/-! ### C38 -/

theorem all_zero_take_succ (ks : List ℕ) (i : ℕ) (h : (ks.take i).all (· == 0) = true) (h0 : ks.getD i 0 = 0) :
    (ks.take (i + 1)).all (· == 0) = true := by
  rw [List.take_add_one, List.all_append, h, Bool.true_and]
  rw [List.getD_eq_getElem?_getD] at h0
  cases hk : ks[i]? with
  | none => rfl
  | some v => rw [hk] at h0; simp at h0; simp [h0]

theorem fillLoop_spec {α : Type*} (arrays : List (List α)) (i : ℕ) (t : Table α)
    (ht : ∀ ks : List ℕ, ks.length = arrays.length → (ks.take i).all (· == 0) = true → ∀ j, i < j → j < arrays.length →
      t ks j = (arrays[j]?).bind (fun a => a[ks.getD j 0]?)) (hi : i < arrays.length) :
    ∀ ks : List ℕ, ks.length = arrays.length → ∀ j, 0 < j → j < arrays.length →
      fillLoop arrays i t ks j = (arrays[j]?).bind (fun a => a[ks.getD j 0]?) := by
  induction i generalizing t with
  | zero => intro ks hk j hj hj2; exact ht ks hk (by simp) j hj hj2
  | succ i ih =>
    unfold fillLoop
    apply ih _ _ (by omega)
    intro ks hk hz j hj hj2
    have key : ∀ ls : List ℕ, ls.length = arrays.length → (ls.take (i + 1)).all (· == 0) = true →
        assignColumn arrays (i + 1) t ls j = (arrays[j]?).bind (fun a => a[ls.getD j 0]?) := by
      intro ls hl hlz
      unfold assignColumn
      by_cases hji : j = i + 1
      · rw [if_pos ⟨hji, hlz⟩, hji]
      · rw [if_neg (fun h => hji h.1)]
        exact ht ls hl hlz j (by omega) hj2
    unfold copyBlock
    simp only [Nat.add_sub_cancel]
    by_cases h1 : 1 ≤ ks.getD i 0
    · rw [if_pos ⟨hz, h1⟩, key _ (by simpa using hk)]
      · have : (ks.set i 0).getD j 0 = ks.getD j 0 := by
          rw [List.getD_eq_getElem?_getD, List.getD_eq_getElem?_getD, List.getElem?_set_ne (by omega)]
        rw [this]
      · apply all_zero_take_succ
        · rw [List.take_set_of_le (Nat.le_refl i)]; exact hz
        · rw [List.getD_eq_getElem?_getD, List.getElem?_set_self (by omega)]; rfl
    · rw [if_neg (fun h => h1 h.2)]
      exact key ks hk (all_zero_take_succ ks i hz (by omega))

theorem filledTable_spec {α : Type*} (arrays : List (List α)) (ks : List ℕ) (hk : ks.length = arrays.length) (j : ℕ)
    (hj : j < arrays.length) :
    filledTable arrays ks j = (arrays[j]?).bind (fun a => a[ks.getD j 0]?) := by
  unfold filledTable assignColumn
  by_cases h : j = 0
  · rw [if_pos ⟨h, by simp⟩, h]
  · rw [if_neg (fun h' => h h'.1)]
    apply fillLoop_spec _ _ _ _ (by omega) ks hk j (by omega) hj
    intro _ _ _ j h1 h2; omega

theorem row_eq_zipWith {α : Type*} (arrays : List (List α)) (ks : List ℕ) (hk : ks.length = arrays.length) :
    (List.range arrays.length).map (fun j => filledTable arrays ks j) =
      List.zipWith (fun (l : List α) k => l[k]?) arrays ks := by
  apply List.ext_getElem
  · simp [hk]
  · intro j h1 h2
    simp only [List.length_map, List.length_range] at h1
    rw [List.getElem_map, List.getElem_range, filledTable_spec _ _ hk _ h1, List.getElem_zipWith,
      List.getElem?_eq_getElem h1, List.getD_eq_getElem?_getD, List.getElem?_eq_getElem (by omega)]
    rfl

/-- C38: with `reverse=True` (default) the rows are all combinations, the first array running fastest; every entry is initialised. -/
theorem cartesian_product_reverse {α : Type*} (arrays : List (List α)) (h : arrays ≠ []) :
    cartesianProduct arrays true = some ((firstFastest arrays).map (fun x => x.map some)) := by
  unfold cartesianProduct
  have hl : arrays.length ≠ 0 := by simpa using h
  rw [if_neg hl]
  simp only [if_true, Option.some.injEq]
  rw [← digits_rows]
  have hs : arrays.reverse.map List.length = (arrays.map List.length).reverse := by rw [List.map_reverse]
  rw [hs, List.prod_reverse]
  apply List.map_congr_left
  intro r _
  unfold cOrderIndex
  rw [List.reverse_reverse]
  have hd : (digits (arrays.map List.length) r).reverse.length = arrays.reverse.length := by simp [digits_length]
  have h1 := row_eq_zipWith arrays.reverse (digits (arrays.map List.length) r).reverse hd
  have h2 : List.zipWith (fun (l : List α) k => l[k]?) arrays.reverse (digits (arrays.map List.length) r).reverse =
      (List.zipWith (fun (l : List α) k => l[k]?) arrays (digits (arrays.map List.length) r)).reverse := by
    rw [List.reverse_zipWith (by simp [digits_length])]
  rw [h2] at h1
  rw [← List.reverse_reverse (List.zipWith _ _ _), ← h1]
  apply List.ext_getElem
  · simp
  · intro j h3 h4
    simp [List.getElem_reverse]

/-- C38: with `reverse=False` the last array runs fastest. -/
theorem cartesian_product_plain {α : Type*} (arrays : List (List α)) (h : arrays ≠ []) :
    cartesianProduct arrays false = some ((lastFastest arrays).map (fun x => x.map some)) := by
  unfold cartesianProduct
  have hl : arrays.length ≠ 0 := by simpa using h
  rw [if_neg hl]
  simp only [Bool.false_eq_true, if_false, Option.some.injEq]
  rw [lastFastest_eq, List.map_map]
  have hd := digits_rows arrays.reverse
  have h3 : (firstFastest arrays.reverse).map ((fun x => x.map some) ∘ List.reverse) =
      ((firstFastest arrays.reverse).map (fun x => x.map some)).map List.reverse := by
    rw [List.map_map]; apply List.map_congr_left; intro x _; simp
  rw [h3, ← hd, List.map_map]
  have hs : arrays.reverse.map List.length = (arrays.map List.length).reverse := by rw [List.map_reverse]
  rw [hs, List.prod_reverse]
  apply List.map_congr_left
  intro r _
  unfold cOrderIndex
  rw [row_eq_zipWith _ _ (by simp [digits_length])]
  simp only [Function.comp]
  rw [List.reverse_zipWith (by simp [digits_length]), List.reverse_reverse]

/-- C38: every combination is listed, and only combinations; no combination is listed twice (for arrays without repeated entries). -/
theorem cartesian_product_complete {α : Type*} (arrays : List (List α)) (h : arrays ≠ []) :
    ∃ rows : List (List α), cartesianProduct arrays true = some (rows.map (fun x => x.map some)) ∧
      (∀ x, x ∈ rows ↔ x.length = arrays.length ∧ ∀ (j : ℕ) (a : List α) (v : α), arrays[j]? = some a → x[j]? = some v → v ∈ a) ∧
      ((∀ a ∈ arrays, a.Nodup) → rows.Nodup) := by
  refine ⟨_, cartesian_product_reverse arrays h, fun x => ?_, nodup_firstFastest arrays⟩
  rw [mem_firstFastest, List.forall₂_iff_get]
  constructor
  · rintro ⟨h1, h2⟩
    refine ⟨h1.symm, fun j a v ha hv => ?_⟩
    obtain ⟨hja, rfl⟩ := List.getElem?_eq_some_iff.1 ha
    obtain ⟨hjx, rfl⟩ := List.getElem?_eq_some_iff.1 hv
    exact h2 j hja hjx
  · rintro ⟨h1, h2⟩
    refine ⟨h1.symm, fun j h3 h4 => ?_⟩
    exact h2 j _ _ (List.getElem?_eq_getElem h3) (List.getElem?_eq_getElem h4)

example : cartesianProduct [[1, 2, 3], [10, 20]] true =
    some ([[1, 10], [2, 10], [3, 10], [1, 20], [2, 20], [3, 20]].map (fun x => x.map some)) := by decide

/-- C38, `uniform_query`: the query table are all combinations of the per-dimension points, first dimension fastest; different lengths are
rejected. -/
theorem uniform_query_rows {K : Type*} (linspace : K → K → ℕ → List K) (lower upper : List K) (res : List ℕ)
    (h1 : lower.length = upper.length) (h2 : upper.length = res.length) (h3 : res ≠ []) :
    uniformQuery linspace lower upper res =
      some ((firstFastest (List.zipWith (fun f r => f r) (List.zipWith linspace lower upper) res)).map
        (fun x => x.map some)) := by
  unfold uniformQuery
  rw [if_pos ⟨h1, h2⟩, cartesian_product_reverse]
  have : 0 < res.length := List.length_pos_iff.2 h3
  intro hc
  have := congrArg List.length hc
  simp only [List.length_zipWith, List.length_nil] at this
  omega

theorem uniform_query_rejects {K : Type*} (linspace : K → K → ℕ → List K) (lower upper : List K) (res : List ℕ)
    (h : lower.length ≠ upper.length ∨ upper.length ≠ res.length) : uniformQuery linspace lower upper res = none := by
  unfold uniformQuery
  rw [if_neg]
  rintro ⟨h1, h2⟩
  rcases h with h | h <;> contradiction

/-! ### C39 -/

theorem prod_eq_zero_of_mem {res : List ℕ} (h : 0 ∈ res) : res.prod = 0 := by
  induction res with
  | nil => simp at h
  | cons r res ih =>
    rcases List.mem_cons.1 h with h | h
    · rw [← h]; simp
    · simp [ih h]


/-- All selected indices exist. -/
def Spec.ValidSel (res : List ℕ) (sel : List (List ℕ)) : Prop :=
  List.Forall₂ (fun s r => ∀ i ∈ s, i < r) sel res

theorem validSel_iff (res : List ℕ) (sel : List (List ℕ)) :
    Spec.ValidSel res sel ↔
      (sel.length = res.length ∧ (List.zipWith (fun (s : List ℕ) r => s.all (· < r)) sel res).all id = true) := by
  unfold Spec.ValidSel
  induction sel generalizing res with
  | nil => cases res <;> simp
  | cons s sel ih =>
    cases res with
    | nil => simp
    | cons r res =>
      rw [List.forall₂_cons, ih]
      simp [and_left_comm]

/-- C39: indexing returns the flat ids of all covered grid coordinates, first dimension fastest. -/
theorem multi_index_get (res : List ℕ) (sel : List (List ℕ)) (h : Spec.ValidSel res sel) :
    multiIndexGet res sel = some ((firstFastest sel).map (flat res)) := by
  unfold multiIndexGet
  rw [if_pos ((validSel_iff res sel).1 h)]
  simp only [Option.some.injEq]
  unfold cOrderIndex
  simp only [List.reverse_reverse]
  have hd := digits_rows sel
  have h3 : (firstFastest sel).map (flat res) =
      ((firstFastest sel).map (fun x => x.map some)).map (fun y => flat res (y.map (fun o => Option.getD o 0))) := by
    rw [List.map_map]
    apply List.map_congr_left
    intro x _
    simp [Function.comp_def]
  rw [h3, ← hd, List.map_map]
  apply List.map_congr_left
  intro r _
  simp only [Function.comp]
  rw [List.map_zipWith]
  rfl

/-- C39: `IndexError` exactly for selections outside of the net. -/
theorem multi_index_error_iff (res : List ℕ) (sel : List (List ℕ)) :
    multiIndexGet res sel = none ↔ ¬ Spec.ValidSel res sel := by
  rw [validSel_iff]
  unfold multiIndexGet
  split <;> simp_all

/-- C39: a single coordinate gives its flat id `c₀ + r₀ (c₁ + r₁ (…))`. -/
theorem multi_index_single (res cs : List ℕ) (h : InGrid res cs) :
    multiIndexGet res (cs.map (fun c => [c])) = some [flat res cs] := by
  rw [multi_index_get]
  · congr 1
    have : firstFastest (cs.map (fun c => [c])) = [cs] := by
      clear h
      induction cs with
      | nil => rfl
      | cons c cs ih => simp [firstFastest, ih]
    rw [this]; rfl
  · unfold Spec.ValidSel
    unfold InGrid at h
    induction h with
    | nil => exact List.Forall₂.nil
    | cons h1 _ ih => exact List.Forall₂.cons (by simpa using h1) ih

/-- C39: the numbering is a bijection between grid coordinates and ids. -/
theorem multi_index_bijective (res : List ℕ) :
    (∀ cs, InGrid res cs → flat res cs < res.prod) ∧
    (∀ cs cs', InGrid res cs → InGrid res cs' → flat res cs = flat res cs' → cs = cs') ∧
    (∀ id < res.prod, ∃ cs, InGrid res cs ∧ flat res cs = id) := by
  refine ⟨fun cs h => flat_lt _ _ h, fun cs cs' h h' he => flat_inj _ _ _ h h' he, fun id h => ?_⟩
  refine ⟨digits res id, digits_inGrid _ _ ?_, flat_digits _ _ h⟩
  intro r hr
  rcases Nat.eq_zero_or_pos r with h0 | h0
  · subst h0
    have := prod_eq_zero_of_mem hr
    omega
  · exact h0

/-- C39: an id is returned for a slice exactly if its coordinates are covered; and every id at most once. -/
theorem multi_index_slice_exact (res : List ℕ) (sel : List (List ℕ)) (h : Spec.ValidSel res sel) :
    ∃ ids, multiIndexGet res sel = some ids ∧
      (∀ id, id ∈ ids ↔ ∃ cs, List.Forall₂ (fun s c => c ∈ s) sel cs ∧ id = flat res cs) ∧
      ((∀ s ∈ sel, s.Nodup) → ids.Nodup) := by
  refine ⟨_, multi_index_get res sel h, fun id => ?_, fun hn => ?_⟩
  · rw [List.mem_map]
    constructor
    · rintro ⟨cs, h1, rfl⟩; exact ⟨cs, (mem_firstFastest _ _).1 h1, rfl⟩
    · rintro ⟨cs, h1, rfl⟩; exact ⟨cs, (mem_firstFastest _ _).2 h1, rfl⟩
  · apply List.Nodup.map_on _ (nodup_firstFastest sel hn)
    have hg : ∀ x ∈ firstFastest sel, InGrid res x := by
      intro x hx
      rw [mem_firstFastest] at hx
      unfold Spec.ValidSel at h
      clear hn
      induction h generalizing x with
      | nil => cases hx; exact List.Forall₂.nil
      | cons h1 _ ih =>
        cases hx with
        | cons h3 h4 => exact List.Forall₂.cons (h1 _ h3) (ih _ h4)
    intro x hx y hy he
    exact flat_inj _ _ _ (hg x hx) (hg y hy) he

/-- C39: selecting everything returns the ids in order. -/
theorem multi_index_all (res : List ℕ) : multiIndexGet res (res.map List.range) = some (List.range res.prod) := by
  rw [multi_index_get]
  · congr 1
    have hd := digits_rows (res.map List.range)
    simp only [List.map_map, Function.comp_def, List.length_range, List.map_id'] at hd
    have h3 : (firstFastest (res.map List.range)).map (flat res) =
        ((firstFastest (res.map List.range)).map (fun x => x.map some)).map
          (fun y => flat res (y.map (fun o => Option.getD o 0))) := by
      rw [List.map_map]
      apply List.map_congr_left
      intro x _
      simp [Function.comp_def]
    rw [h3, ← hd, List.map_map]
    conv_rhs => rw [← List.map_id (List.range res.prod)]
    apply List.map_congr_left
    intro id hid
    rw [List.mem_range] at hid
    simp only [Function.comp, id_eq]
    have hpos : ∀ r ∈ res, 0 < r := by
      intro r hr
      rcases Nat.eq_zero_or_pos r with h0 | h0
      · subst h0; have := prod_eq_zero_of_mem hr; omega
      · exact h0
    have : (List.zipWith (fun (l : List ℕ) k => l[k]?) (res.map List.range) (digits res id)).map (fun o => Option.getD o 0) =
        digits res id := by
      have hg := digits_inGrid res id hpos
      unfold InGrid at hg
      clear h3 hd hpos hid
      generalize digits res id = cs at hg
      induction hg with
      | nil => rfl
      | cons h1 _ ih => simp only [List.map_cons, List.zipWith_cons_cons, ih]; simp [h1]
    rw [this, flat_digits _ _ hid]
  · unfold Spec.ValidSel
    induction res with
    | nil => exact List.Forall₂.nil
    | cons r res ih => exact List.Forall₂.cons (by simp) ih

example : InGrid [3, 2] [2, 1] ∧ Spec.ValidSel [3, 2] [[2, 1, 0], [1]] ∧ multiIndexGet [3, 2] [[2, 1, 0], [1]] = some [5, 4, 3] := by
  refine ⟨?_, ?_, by decide⟩
  · exact List.Forall₂.cons (by decide) (List.Forall₂.cons (by decide) List.Forall₂.nil)
  · exact List.Forall₂.cons (by decide) (List.Forall₂.cons (by decide) List.Forall₂.nil)

/-! ### C54 -/

theorem putAlong_not_mem {K : Type*} (row : ℕ → K) (ps : List (K × ℕ)) (c : ℕ) (h : c ∉ ps.map (·.2)) :
    putAlong row ps c = row c := by
  induction ps generalizing row with
  | nil => rfl
  | cons p ps ih =>
    simp only [List.map_cons, List.mem_cons, not_or] at h
    rw [putAlong, ih _ h.2, Function.update_of_ne h.1]

theorem putAlong_eq_sum {K : Type*} [AddCommMonoid K] (row : ℕ → K) (ps : List (K × ℕ)) (c : ℕ) (h : (ps.map (·.2)).Nodup) :
    putAlong row ps c = if c ∈ ps.map (·.2) then (ps.map (fun p => if p.2 = c then p.1 else 0)).sum else row c := by
  induction ps generalizing row with
  | nil => simp [putAlong]
  | cons p ps ih =>
    rw [List.map_cons, List.nodup_cons] at h
    rw [putAlong]
    by_cases hc : p.2 = c
    · subst hc
      rw [putAlong_not_mem _ _ _ h.1, Function.update_self, if_pos (by simp)]
      simp only [List.map_cons, List.sum_cons, if_true]
      have : (ps.map (fun q => if q.2 = p.2 then q.1 else 0)).sum = 0 := by
        apply List.sum_eq_zero
        intro x hx
        obtain ⟨q, hq, rfl⟩ := List.mem_map.1 hx
        rw [if_neg]
        intro he
        exact h.1 (he ▸ List.mem_map_of_mem hq)
      rw [this, add_zero]
    · rw [ih _ h.2]
      simp only [List.map_cons, List.mem_cons, List.sum_cons, if_neg hc, zero_add]
      rw [Function.update_of_ne (fun h => hc h.symm)]
      have : (c = p.2 ∨ c ∈ ps.map (·.2)) ↔ c ∈ ps.map (·.2) :=
        ⟨fun h => h.resolve_left (fun h => hc h.symm), Or.inr⟩
      simp only [this]

/-- C54: sparse and dense matrices agree if the supports of the row are pairwise different. -/
theorem dense_eq_sparse {K : Type*} [AddCommMonoid K] (values : List (List K)) (supports : List (List ℕ)) (r c : ℕ)
    (hl : (values.getD r []).length = (supports.getD r []).length) (hn : (supports.getD r []).Nodup) :
    makeMatrixDense values supports r c = makeMatrixSparse values supports r c := by
  have hm : (List.zip (values.getD r []) (supports.getD r [])).map (·.2) = supports.getD r [] := by
    rw [List.map_snd_zip (by omega)]
  unfold makeMatrixDense makeMatrixSparse
  rw [putAlong_eq_sum _ _ _ (by rw [hm]; exact hn)]
  split
  · rfl
  · rename_i h
    symm
    apply List.sum_eq_zero
    intro x hx
    obtain ⟨q, hq, rfl⟩ := List.mem_map.1 hx
    rw [if_neg]
    intro he
    exact h (he ▸ List.mem_map_of_mem hq)

/-- C54: the entry at the `j`-th support of row `r` is the `j`-th value (both variants). -/
theorem matrix_entry {K : Type*} [AddCommMonoid K] (values : List (List K)) (supports : List (List ℕ)) (r j : ℕ) (v : K) (c : ℕ)
    (hl : (values.getD r []).length = (supports.getD r []).length) (hn : (supports.getD r []).Nodup)
    (hv : (values.getD r [])[j]? = some v) (hc : (supports.getD r [])[j]? = some c) :
    makeMatrixSparse values supports r c = v ∧ makeMatrixDense values supports r c = v := by
  have h1 : makeMatrixSparse values supports r c = v := by
    unfold makeMatrixSparse
    generalize values.getD r [] = vs at hl hv
    generalize supports.getD r [] = ss at hl hn hc
    induction vs generalizing ss j with
    | nil => simp at hv
    | cons a vs ih =>
      cases ss with
      | nil => simp at hc
      | cons s ss =>
        rw [List.nodup_cons] at hn
        simp only [List.zip_cons_cons, List.map_cons, List.sum_cons]
        cases j with
        | zero =>
          simp only [List.getElem?_cons_zero, Option.some.injEq] at hv hc
          subst hv; subst hc
          rw [if_pos rfl]
          have : ((List.zip vs ss).map (fun q => if q.2 = s then q.1 else 0)).sum = 0 := by
            apply List.sum_eq_zero
            intro x hx
            obtain ⟨q, hq, rfl⟩ := List.mem_map.1 hx
            rw [if_neg]
            intro he
            exact hn.1 (he ▸ (List.of_mem_zip hq).2)
          rw [this, add_zero]
        | succ j =>
          simp only [List.getElem?_cons_succ] at hv hc
          have hs : s ≠ c := fun he => hn.1 (he ▸ List.mem_of_getElem? hc)
          rw [if_neg hs, zero_add]
          exact ih j hv ss (by simpa using hl) hn.2 hc
  exact ⟨h1, by rw [dense_eq_sparse values supports r c hl hn, h1]⟩

/-- C54: all other entries are zero. -/
theorem matrix_zero {K : Type*} [AddCommMonoid K] (values : List (List K)) (supports : List (List ℕ)) (r c : ℕ)
    (hc : c ∉ supports.getD r []) :
    makeMatrixSparse values supports r c = 0 ∧ makeMatrixDense values supports r c = 0 := by
  constructor
  · apply List.sum_eq_zero
    intro x hx
    obtain ⟨q, hq, rfl⟩ := List.mem_map.1 hx
    rw [if_neg]
    intro he
    exact hc (he ▸ (List.of_mem_zip hq).2)
  · unfold makeMatrixDense
    rw [putAlong_not_mem]
    intro hm
    obtain ⟨q, hq, he⟩ := List.mem_map.1 hm
    exact hc (he ▸ (List.of_mem_zip hq).2)

/-- C54: matrix times control point coefficients is the sum over the supports, i.e. the evaluation of the spline; this holds for the sparse
variant even with repeated supports. -/
theorem matrix_times_cps {K : Type*} [Semiring K] (values : List (List K)) (supports : List (List ℕ)) (r nCols : ℕ)
    (cps : ℕ → K) (hs : ∀ c ∈ supports.getD r [], c < nCols) :
    ((List.range nCols).map (fun c => makeMatrixSparse values supports r c * cps c)).sum =
      ((List.zip (values.getD r []) (supports.getD r [])).map (fun p => p.1 * cps p.2)).sum := by
  unfold makeMatrixSparse
  generalize values.getD r [] = vs
  generalize supports.getD r [] = ss at hs
  induction vs generalizing ss with
  | nil => simp
  | cons a vs ih =>
    cases ss with
    | nil => simp
    | cons s ss =>
      simp only [List.zip_cons_cons, List.map_cons, List.sum_cons, add_mul]
      rw [List.sum_map_add, ih ss (fun c hc => hs c (by simp [hc]))]
      congr 1
      have hsn := hs s (by simp)
      have : (List.range nCols).map (fun c => (if s = c then a else 0) * cps c) =
          (List.range nCols).map (fun c => if s = c then a * cps s else 0) := by
        apply List.map_congr_left
        intro c _
        split
        · rename_i h; rw [h]
        · rw [zero_mul]
      rw [this]
      clear ih hs this
      induction nCols with
      | zero => omega
      | succ n ihn =>
        rw [List.range_succ, List.map_append, List.sum_append]
        by_cases h : s = n
        · subst h
          have : ((List.range s).map (fun c => if s = c then a * cps s else 0)).sum = 0 := by
            apply List.sum_eq_zero
            intro x hx
            obtain ⟨q, hq, rfl⟩ := List.mem_map.1 hx
            rw [if_neg]
            have := List.mem_range.1 hq
            omega
          rw [this]; simp
        · rw [ihn (by omega)]; simp [h]

example : makeMatrixSparse [[1, 2], [3, 4]] [[0, 2], [1, 2]] 1 2 = (4 : ℤ) ∧ ([1, 2] : List ℕ).Nodup := by decide

/-- Repeated supports of one row: sparse adds, dense overwrites (outside of the claim, recorded as difference of the two variants). -/
theorem repeated_supports_differ :
    makeMatrixSparse [[1, 2]] [[0, 0]] 0 0 = (3 : ℤ) ∧ makeMatrixDense [[1, 2]] [[0, 0]] 0 0 = (2 : ℤ) := by decide

end Splinepy.Index
