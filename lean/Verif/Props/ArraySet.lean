import Verif.Model.ArraySet
import Mathlib.Order.Basic
import Mathlib.Algebra.Order.Group.Unbundled.Int
import Mathlib.Order.Defs.LinearOrder
import Mathlib.Tactic.SplitIfs
import Mathlib.Data.List.Nodup

/-!
C24: item assignments on control points and weights reach the core. C26: assignments to knot vectors.
-/
set_option linter.unusedSectionVars false

namespace Splinepy.ArraySet

variable {α : Type}

/-! ### Specification -/

/-- keys for which the claim holds: no `bool`, no empty list; slices with a positive step, a start at least `-n` and a stop at most `n`, or with a
negative step and start and stop given and within `[-n, n)`, `[-n, ∞)` -/
def Spec.Supported (n : ℕ) : Key → Prop
  | .bool _ => False
  | .emptyList => False
  | .slice a b c =>
    (0 < c.getD 1 ∧ (∀ s ∈ a, -(n : Int) ≤ s) ∧ (∀ e ∈ b, e ≤ (n : Int))) ∨
    (c.getD 1 < 0 ∧ (∃ s, a = some s ∧ -(n : Int) ≤ s ∧ s < n) ∧ (∃ e, b = some e ∧ -(n : Int) ≤ e))
  | _ => True

/-- for weights, lists of ids must not have negative entries -/
def Spec.SupportedWeights (n : ℕ) (k : Key) : Prop :=
  Spec.Supported n k ∧ ∀ l, k = .ints l → ∀ i ∈ l, 0 ≤ i

/-! ### ranges and slices -/

theorem arange_empty_pos {a b s : Int} (hs : 0 < s) (h : b ≤ a) : arange a b s = [] := by
  unfold arange
  simp only [if_pos hs]
  rw [if_neg (by omega)]
  rfl

theorem arange_empty_neg {a b s : Int} (hs : s < 0) (h : a ≤ b) : arange a b s = [] := by
  unfold arange
  simp only [if_neg (show ¬ 0 < s by omega)]
  rw [if_neg (by omega)]
  rfl

theorem mem_arange_pos {a b s : Int} (hs : 0 < s) {i : Int} (hi : i ∈ arange a b s) : a ≤ i ∧ i < b := by
  unfold arange at hi
  simp only [if_pos hs, List.mem_map, List.mem_range] at hi
  obtain ⟨k, hk, rfl⟩ := hi
  split_ifs at hk with hab
  · have h0 : 0 ≤ (b - a - 1) / s := Int.ediv_nonneg (by omega) (by omega)
    have h1 : (k : Int) ≤ (b - a - 1) / s := by omega
    have h2 : (k : Int) * s ≤ (b - a - 1) / s * s := Int.mul_le_mul_of_nonneg_right h1 (by omega)
    have h3 : (b - a - 1) / s * s ≤ b - a - 1 := Int.ediv_mul_le _ (by omega)
    have h4 : 0 ≤ (k : Int) * s := Int.mul_nonneg (by omega) (by omega)
    omega
  · omega

theorem mem_arange_neg {a b s : Int} (hs : s < 0) {i : Int} (hi : i ∈ arange a b s) : b < i ∧ i ≤ a := by
  unfold arange at hi
  simp only [if_neg (show ¬ 0 < s by omega), List.mem_map, List.mem_range] at hi
  obtain ⟨k, hk, rfl⟩ := hi
  split_ifs at hk with hab
  · have h0 : 0 ≤ (a - b - 1) / (-s) := Int.ediv_nonneg (by omega) (by omega)
    have h1 : (k : Int) ≤ (a - b - 1) / (-s) := by omega
    have h2 : (k : Int) * (-s) ≤ (a - b - 1) / (-s) * (-s) := Int.mul_le_mul_of_nonneg_right h1 (by omega)
    have h3 : (a - b - 1) / (-s) * (-s) ≤ a - b - 1 := Int.ediv_mul_le _ (by omega)
    have h4 : 0 ≤ (k : Int) * (-s) := Int.mul_nonneg (by omega) (by omega)
    have h5 : (k : Int) * (-s) = -((k : Int) * s) := Int.mul_neg _ _
    omega
  · omega

theorem clip_pos {n : ℕ} {st b : Int} (hs : 0 < st) : 0 ≤ clip n st b ∧ clip n st b ≤ n := by
  unfold clip
  simp only [if_neg (show ¬ st < 0 by omega)]
  split_ifs <;> omega

theorem clip_neg {n : ℕ} {st b : Int} (hs : st < 0) : -1 ≤ clip n st b ∧ clip n st b ≤ (n : Int) - 1 := by
  unfold clip
  simp only [if_pos hs]
  split_ifs <;> omega

/-- all indices of a slice are in range -/
theorem sliceIds_range {n : ℕ} {a b c : Option Int} {ids : List Int} (h : sliceIds n a b c = some ids) : ∀ i ∈ ids, 0 ≤ i ∧ i < n := by
  unfold sliceIds at h
  split_ifs at h with h0
  simp only [Option.some.injEq] at h
  subst h
  intro i hi
  rcases lt_or_gt_of_ne h0 with hneg | hpos
  · have := mem_arange_neg hneg hi
    have hb : (-1 : Int) ≤ sliceStop n (c.getD 1) b := by
      cases b with
      | none => simp [sliceStop, hneg]
      | some e => exact (clip_neg hneg).1
    have ha : sliceStart n (c.getD 1) a ≤ (n : Int) - 1 := by
      cases a with
      | none => simp [sliceStart, hneg]
      | some s => exact (clip_neg hneg).2
    omega
  · have := mem_arange_pos hpos hi
    have hb : sliceStop n (c.getD 1) b ≤ n := by
      cases b with
      | none => simp only [sliceStop, if_neg (show ¬ c.getD 1 < 0 by omega)]; omega
      | some e => exact (clip_pos hpos).2
    have ha : 0 ≤ sliceStart n (c.getD 1) a := by
      cases a with
      | none => simp only [sliceStart, if_neg (show ¬ c.getD 1 < 0 by omega)]; omega
      | some s => exact (clip_pos hpos).1
    omega

theorem arange_clip_pos {n : ℕ} {st a b : Int} (hs : 0 < st) (ha : 0 ≤ a) (hb : b ≤ n) :
    arange (min a n) (max b 0) st = arange a b st := by
  by_cases h : a < b
  · rw [show min a (n : Int) = a by omega, show max b 0 = b by omega]
  · rw [arange_empty_pos hs (by omega), arange_empty_pos hs (by omega)]

/-- for the supported slices, the ids computed in `__setitem__` are those of Python -/
theorem slice_synced {n : ℕ} {a b c : Option Int} (h : Spec.Supported n (.slice a b c)) : syncedIds n (.slice a b c) = sliceIds n a b c := by
  unfold syncedIds sliceIds
  simp only
  rcases h with ⟨hpos, ha, hb⟩ | ⟨hneg, ⟨s, rfl, hs1, hs2⟩, ⟨e, rfl, he⟩⟩
  · rw [if_neg (by omega), if_neg (by omega)]
    congr 1
    have hn : ¬ c.getD 1 < 0 := by omega
    have hA0 : 0 ≤ keyStart n a := by
      cases a with
      | none => simp [keyStart]
      | some s => have := ha s (by simp); simp only [keyStart]; split_ifs <;> omega
    have hBn : keyStop n b ≤ n := by
      cases b with
      | none => simp [keyStop]
      | some e => have := hb e (by simp); simp only [keyStop]; split_ifs <;> omega
    have e1 : sliceStart n (c.getD 1) a = min (keyStart n a) n := by
      cases a with
      | none => simp only [sliceStart, keyStart, if_neg hn]; omega
      | some s => have := ha s (by simp); simp only [sliceStart, keyStart, clip, if_neg hn]; split_ifs <;> omega
    have e2 : sliceStop n (c.getD 1) b = max (keyStop n b) 0 := by
      cases b with
      | none => simp only [sliceStop, keyStop, if_neg hn]; omega
      | some e => have := hb e (by simp); simp only [sliceStop, keyStop, clip, if_neg hn]; split_ifs <;> omega
    rw [e1, e2, arange_clip_pos hpos hA0 hBn]
  · rw [if_neg (by omega), if_neg (by omega)]
    congr 1
    have e1 : sliceStart n (c.getD 1) (some s) = keyStart n (some s) := by
      simp only [sliceStart, keyStart, clip, if_pos hneg]; split_ifs <;> omega
    have hS : keyStart n (some s) < n := by simp only [keyStart]; split_ifs <;> omega
    rw [e1]
    by_cases hen : keyStop n (some e) ≤ (n : Int) - 1
    · congr 1
      simp only [sliceStop, keyStop, clip, if_pos hneg] at hen ⊢
      split_ifs at hen ⊢ <;> omega
    · have : (n : Int) - 1 ≤ sliceStop n (c.getD 1) (some e) := by
        simp only [sliceStop, keyStop, clip, if_pos hneg] at hen ⊢
        split_ifs at hen ⊢ <;> omega
      rw [arange_empty_neg hneg (by omega), arange_empty_neg hneg (by omega)]

/-! ### mirroring -/

theorem wrapId_lt {i : Int} {n j : ℕ} (h : Pointers.wrapId i n = some j) : j < n := by
  unfold Pointers.wrapId at h
  generalize (if i < 0 then i + n else i) = k at h
  simp only at h
  split_ifs at h
  simp only [Option.some.injEq] at h
  omega

theorem wrapId_of_range {i : Int} {n : ℕ} (h0 : 0 ≤ i) (h1 : i < n) : Pointers.wrapId i n = some i.toNat := by
  unfold Pointers.wrapId
  have e : (if i < 0 then i + (n : Int) else i) = i := if_neg (by omega)
  rw [e]
  exact if_pos ⟨h0, h1⟩

theorem numpySet_length (arr : List α) (rows : List ℕ) (new : ℕ → α) : (numpySet arr rows new).length = arr.length := by
  unfold numpySet
  induction rows generalizing arr with
  | nil => rfl
  | cons i rows ih => rw [List.foldl_cons, ih, List.length_set]

/-- what numpy writes: the listed rows are new, the others are kept -/
theorem numpySet_getElem? (arr : List α) (rows : List ℕ) (new : ℕ → α) (i : ℕ) (hi : i < arr.length) :
    (numpySet arr rows new)[i]? = if i ∈ rows then some (new i) else arr[i]? := by
  unfold numpySet
  induction rows generalizing arr with
  | nil => simp
  | cons j rows ih =>
    rw [List.foldl_cons, ih _ (by simpa using hi), List.getElem?_set]
    by_cases hm : i ∈ rows
    · simp [hm]
    · rw [if_neg hm]
      by_cases hj : j = i
      · subst hj; simp [hi]
      · rw [if_neg hj, if_neg (by simp only [List.mem_cons, not_or]; exact ⟨fun e => hj e.symm, hm⟩)]

theorem mirror_exact (w : Bool) (arr : List α) (ids : List Int) (rows : List ℕ) (core : List α) (hlen : core.length = arr.length)
    (hw : w = true → ∀ i ∈ ids, 0 ≤ i) (hids : ids.mapM (fun i => Pointers.wrapId i arr.length) = some rows) :
    ∃ core', mirror w arr ids core = some core' ∧ core'.length = core.length ∧
      ∀ i : ℕ, core'[i]? = if i ∈ rows then arr[i]? else core[i]? := by
  unfold mirror
  induction ids generalizing core rows with
  | nil =>
    simp at hids
    subst hids
    exact ⟨core, rfl, rfl, fun i => by simp⟩
  | cons id ids ih =>
    rw [List.mapM_cons] at hids
    cases h1 : Pointers.wrapId id arr.length with
    | none => rw [h1] at hids; simp at hids
    | some j =>
      rw [h1] at hids
      cases h2 : ids.mapM (fun i => Pointers.wrapId i arr.length) with
      | none => rw [h2] at hids; simp at hids
      | some rows' =>
        rw [h2] at hids
        simp at hids
        subst hids
        have hj := wrapId_lt h1
        rw [List.foldlM_cons, hlen, h1]
        have hneg : ¬ (w = true ∧ id < 0) := by
          rintro ⟨a, b⟩
          have := hw a id (by simp)
          omega
        simp only [Option.bind_some]
        rw [if_neg hneg, List.getElem?_eq_getElem hj]
        simp only [Option.map_some, Option.bind_eq_bind, Option.bind_some]
        obtain ⟨core', hc, hl, hg⟩ := ih rows' (core.set j arr[j]) (by simpa using hlen) (fun a i hi => hw a i (List.mem_cons_of_mem _ hi)) h2
        refine ⟨core', hc, by rw [hl, List.length_set]; exact hlen, ?_⟩
        intro i
        rw [hg i, List.getElem?_set]
        by_cases hm : i ∈ rows'
        · simp [hm]
        · rw [if_neg hm]
          by_cases hji : j = i
          · subst hji
            rw [if_pos rfl, if_pos (by omega), if_pos (by simp), List.getElem?_eq_getElem hj]
          · rw [if_neg hji, if_neg (by simp only [List.mem_cons, not_or]; exact ⟨fun e => hji e.symm, hm⟩)]

theorem mapM_wrapId_nat (n : ℕ) (l : List ℕ) (h : ∀ i ∈ l, i < n) : (l.map (fun (i : ℕ) => (i : Int))).mapM (fun i => Pointers.wrapId i n) = some l := by
  induction l with
  | nil => rfl
  | cons i l ih =>
    rw [List.map_cons, List.mapM_cons, wrapId_of_range (by omega) (by have := h i (by simp); omega), ih (fun j hj => h j (List.mem_cons_of_mem _ hj))]
    simp

theorem mapM_wrapId_range (n : ℕ) (l : List Int) (h : ∀ i ∈ l, 0 ≤ i ∧ i < n) : l.mapM (fun i => Pointers.wrapId i n) = some (l.map Int.toNat) := by
  induction l with
  | nil => rfl
  | cons i l ih =>
    have hi := h i (by simp)
    rw [List.mapM_cons, wrapId_of_range hi.1 hi.2, ih (fun j hj => h j (List.mem_cons_of_mem _ hj))]
    simp

/-- the rows that are mirrored contain the rows numpy writes -/
theorem synced_covers (n : ℕ) (k : Key) (h : Spec.Supported n k) (rows : List ℕ) (hr : numpyRows n k = some rows) :
    ∃ ids rows', syncedIds n k = some ids ∧ ids.mapM (fun i => Pointers.wrapId i n) = some rows' ∧ (∀ i ∈ rows, i ∈ rows') := by
  cases k with
  | int i =>
    simp only [numpyRows] at hr
    cases hi : Pointers.wrapId i n with
    | none => rw [hi] at hr; simp at hr
    | some j =>
      rw [hi] at hr; simp at hr; subst hr
      exact ⟨[i], [j], rfl, by simp [hi], fun _ h => h⟩
  | bool b => exact h.elim
  | ints l => exact ⟨l, rows, rfl, hr, fun _ h => h⟩
  | emptyList => exact h.elim
  | mask m =>
    unfold numpyRows at hr
    simp only at hr
    split_ifs at hr with hm
    simp only [Option.some.injEq] at hr
    subst hr
    exact ⟨_, _, rfl, mapM_wrapId_nat n _ (fun i hi => List.mem_range.1 (List.mem_filter.1 hi).1), fun _ h => h⟩
  | slice a b c =>
    unfold numpyRows at hr
    simp only [Option.map_eq_some_iff] at hr
    obtain ⟨ids, hids, rfl⟩ := hr
    exact ⟨ids, ids.map Int.toNat, by rw [slice_synced h, hids], mapM_wrapId_range n ids (sliceIds_range hids), fun _ h => h⟩
  | ellipsis =>
    unfold numpyRows at hr
    simp only [Option.some.injEq] at hr
    subst hr
    exact ⟨_, _, rfl, mapM_wrapId_nat n _ (fun i hi => List.mem_range.1 hi), fun _ h => h⟩
  | other rs =>
    unfold numpyRows at hr
    simp only at hr
    split_ifs at hr with hm
    simp only [Option.some.injEq] at hr
    subst hr
    refine ⟨_, _, rfl, mapM_wrapId_nat n _ (fun i hi => List.mem_range.1 (List.mem_filter.1 hi).1), fun i hi => ?_⟩
    rw [List.mem_filter, List.mem_range]
    rw [List.all_eq_true] at hm
    exact ⟨by simpa using hm i hi, by simpa using hi⟩

theorem setItem_supported (w : Bool) (s : State α) (hs : s.core = s.arr) (k : Key) (new : ℕ → α) (hk : Spec.Supported s.arr.length k)
    (hneg : w = true → ∀ l, k = .ints l → ∀ i ∈ l, 0 ≤ i) :
    (numpyRows s.arr.length k = none ∧ setItem w s k new = .rejected) ∨
    (∃ rows, numpyRows s.arr.length k = some rows ∧
      setItem w s k new = .done ⟨numpySet s.arr rows new, numpySet s.arr rows new⟩) := by
  cases hr : numpyRows s.arr.length k with
  | none => left; refine ⟨rfl, ?_⟩; unfold setItem; rw [hr]
  | some rows =>
    right
    refine ⟨rows, rfl, ?_⟩
    obtain ⟨ids, rows', h1, h2, h3⟩ := synced_covers _ k hk rows hr
    have hl := numpySet_length s.arr rows new
    have hw : (w && !(usesSetRow k)) = true → ∀ i ∈ ids, 0 ≤ i := by
      intro hwt
      rw [Bool.and_eq_true, Bool.not_eq_true'] at hwt
      obtain ⟨hwt, hset⟩ := hwt
      cases k with
      | int i => simp [usesSetRow] at hset
      | bool b => simp [usesSetRow] at hset
      | ints l =>
        simp only [syncedIds, Option.some.injEq] at h1
        subst h1
        exact hneg hwt l rfl
      | emptyList => exact hk.elim
      | mask m => simp only [syncedIds, Option.some.injEq] at h1; subst h1; intro i hi; simp only [List.mem_map] at hi; obtain ⟨j, _, rfl⟩ := hi; omega
      | slice a b c =>
        rw [slice_synced hk] at h1
        exact fun i hi => (sliceIds_range h1 i hi).1
      | ellipsis => simp only [syncedIds, Option.some.injEq] at h1; subst h1; intro i hi; simp only [List.mem_map] at hi; obtain ⟨j, _, rfl⟩ := hi; omega
      | other rs => simp only [syncedIds, Option.some.injEq] at h1; subst h1; intro i hi; simp only [List.mem_map] at hi; obtain ⟨j, _, rfl⟩ := hi; omega
    obtain ⟨core', hc, hcl, hcg⟩ := mirror_exact (w && !(usesSetRow k)) (numpySet s.arr rows new) ids rows' s.core (by rw [hl, hs]) hw (by rw [hl]; exact h2)
    have hcore : core' = numpySet s.arr rows new := by
      apply List.ext_getElem?
      intro i
      by_cases hi : i < s.arr.length
      · rw [hcg i]
        by_cases hm : i ∈ rows'
        · rw [if_pos hm]
        · rw [if_neg hm, numpySet_getElem? _ _ _ i hi, if_neg (fun h => hm (h3 i h)), hs]
      · rw [List.getElem?_eq_none (by rw [hcl, hs]; omega), List.getElem?_eq_none (by rw [hl]; omega)]
    unfold setItem
    rw [hr]
    simp only
    rw [hl, h1]
    simp only [Option.bind_some]
    rw [hc]
    simp only [hcore]

/-- C24 for control points: if the core equals the array, then after an item assignment with a supported key either numpy rejects the key, and nothing has
changed, or the touched rows have the new values, all others their old ones, in the array and in the core. -/
theorem setitem_reaches_core_partial (s : State α) (hs : s.core = s.arr) (k : Key) (new : ℕ → α) (hk : Spec.Supported s.arr.length k) :
    (numpyRows s.arr.length k = none ∧ setItem false s k new = .rejected) ∨
    (∃ rows s', numpyRows s.arr.length k = some rows ∧ setItem false s k new = .done s' ∧ s'.core = s'.arr ∧ s'.arr.length = s.arr.length ∧
      ∀ i < s.arr.length, s'.arr[i]? = if i ∈ rows then some (new i) else s.arr[i]?) := by
  rcases setItem_supported false s hs k new hk (by simp) with h | ⟨rows, h1, h2⟩
  · exact Or.inl h
  · exact Or.inr ⟨rows, _, h1, h2, rfl, numpySet_length _ _ _, fun i hi => numpySet_getElem? _ _ _ i hi⟩

/-- C24 for weights, if lists of ids have no negative entries -/
theorem setitem_weights_partial (s : State α) (hs : s.core = s.arr) (k : Key) (new : ℕ → α) (hk : Spec.SupportedWeights s.arr.length k) :
    (numpyRows s.arr.length k = none ∧ setItem true s k new = .rejected) ∨
    (∃ rows s', numpyRows s.arr.length k = some rows ∧ setItem true s k new = .done s' ∧ s'.core = s'.arr ∧ s'.arr.length = s.arr.length ∧
      ∀ i < s.arr.length, s'.arr[i]? = if i ∈ rows then some (new i) else s.arr[i]?) := by
  rcases setItem_supported true s hs k new hk.1 (fun _ => hk.2) with h | ⟨rows, h1, h2⟩
  · exact Or.inl h
  · exact Or.inr ⟨rows, _, h1, h2, rfl, numpySet_length _ _ _, fun i hi => numpySet_getElem? _ _ _ i hi⟩

/-- in-place operations and assignments through views synchronise everything, whatever the state of the core was -/
theorem in_place_reaches_core (s : State α) (hs : s.core.length = s.arr.length) (new : ℕ → α) :
    ∃ s', inPlace s new = .done s' ∧ s'.core = s'.arr ∧ s'.arr = (List.range s.arr.length).map new := by
  have hl := numpySet_length s.arr (List.range s.arr.length) new
  obtain ⟨core', hc, hcl, hcg⟩ := mirror_exact false (numpySet s.arr (List.range s.arr.length) new) ((List.range s.arr.length).map (fun (i : ℕ) => (i : Int)))
    (List.range s.arr.length) s.core (by rw [hl, hs]) (by simp) (by rw [hl]; exact mapM_wrapId_nat _ _ (fun i hi => List.mem_range.1 hi))
  refine ⟨⟨numpySet s.arr (List.range s.arr.length) new, core'⟩, ?_, ?_, ?_⟩
  · unfold inPlace
    simp only
    rw [hl, hc]
  · apply List.ext_getElem?
    intro i
    simp only
    rw [hcg i]
    by_cases hi : i < s.arr.length
    · rw [if_pos (List.mem_range.2 hi)]
    · rw [if_neg (by rwa [List.mem_range]), List.getElem?_eq_none (by omega), List.getElem?_eq_none (by rw [hl]; omega)]
  · apply List.ext_getElem?
    intro i
    by_cases hi : i < s.arr.length
    · simp only
      rw [numpySet_getElem? _ _ _ i hi, if_pos (List.mem_range.2 hi), List.getElem?_map, List.getElem?_range hi]
      rfl
    · rw [List.getElem?_eq_none (by simp only; rw [hl]; omega), List.getElem?_eq_none (by simpa using hi)]

/-- non-vacuity: slices with positive and negative steps, masks and lists -/
example : Spec.Supported 5 (.slice (some (-4)) none (some 2)) ∧ numpyRows 5 (.slice (some (-4)) none (some 2)) = some [1, 3] ∧
    Spec.Supported 5 (.slice (some 4) (some 1) (some (-1))) ∧ numpyRows 5 (.slice (some 4) (some 1) (some (-1))) = some [4, 3, 2] ∧
    numpyRows 5 (.mask [true, false, false, true, false]) = some [0, 3] := by
  refine ⟨Or.inl ⟨by decide, by simp, by simp⟩, by decide, Or.inr ⟨by decide, ⟨4, rfl, by decide, by decide⟩, ⟨1, rfl, by decide⟩⟩, by decide, by decide⟩

/-- the state after an assignment that numpy accepts -/
def Spec.arrayAfter : Outcome α → Option (List α)
  | .rejected => none
  | .failed a => some a
  | .done s => some s.arr

/-- C24 fails: for `arr[::-1] = …` numpy writes every row and none reaches the core. -/
theorem setitem_reversed_violates :
    ∃ s : State ℕ, s.core = s.arr ∧ ∃ s', setItem false s (.slice none none (some (-1))) (fun i => i + 10) = .done s' ∧ s'.arr = [10, 11, 12] ∧ s'.core = [0, 1, 2] :=
  ⟨⟨[0, 1, 2], [0, 1, 2]⟩, rfl, ⟨[10, 11, 12], [0, 1, 2]⟩, rfl, rfl, rfl⟩

/-- C24 fails: `arr[0:4] = …` for three rows is accepted by numpy, and row 3 of the core is accessed (out of range). -/
theorem setitem_long_slice_violates :
    ∃ s : State ℕ, s.core = s.arr ∧ setItem false s (.slice (some 0) (some 4) none) (fun i => i + 10) = .failed [10, 11, 12] :=
  ⟨⟨[0, 1, 2], [0, 1, 2]⟩, rfl, rfl⟩

/-- C24 fails: a start below `-n` shifts the ids. Row 2 is written by numpy and not synchronised. -/
theorem setitem_low_start_violates :
    ∃ s : State ℕ, s.core = s.arr ∧ ∃ s', setItem false s (.slice (some (-5)) none (some 2)) (fun i => i + 10) = .done s' ∧ s'.arr = [10, 1, 12, 3] ∧ s'.core = [0, 1, 2, 3] :=
  ⟨⟨[0, 1, 2, 3], [0, 1, 2, 3]⟩, rfl, ⟨[10, 1, 12, 3], [0, 1, 2, 3]⟩, rfl, rfl, rfl⟩

/-- C24 fails: `arr[[]] = …` raises after numpy accepted it, `arr[True] = …` writes all rows and synchronises row 1. -/
theorem setitem_bool_violates :
    ∃ s : State ℕ, s.core = s.arr ∧ setItem false s .emptyList (fun i => i + 10) = .failed [0, 1, 2] ∧
      ∃ s', setItem false s (.bool true) (fun i => i + 10) = .done s' ∧ s'.arr = [10, 11, 12] ∧ s'.core = [0, 11, 2] :=
  ⟨⟨[0, 1, 2], [0, 1, 2]⟩, rfl, rfl, ⟨[10, 11, 12], [0, 11, 2]⟩, rfl, rfl, rfl⟩

/-- C24 fails for weights: `weights[[-1]] = …` reads the new weight in front of the array. -/
theorem setitem_weights_violates :
    ∃ s : State ℕ, s.core = s.arr ∧ setItem true s (.ints [-1]) (fun i => i + 10) = .failed [0, 1, 12] :=
  ⟨⟨[0, 1, 2], [0, 1, 2]⟩, rfl, rfl⟩

/-! ### C26 -/

variable {K : Type} [LinearOrder K]

/-- the contract of the external check: it passes exactly for non-decreasing knots -/
def Spec.IsCheck (valid : List K → Bool) : Prop := ∀ l, valid l = true ↔ l.Pairwise (· ≤ ·)

/-- the contract of the external single knot update: it throws, or replaces one knot and the result is non-decreasing -/
def Spec.IsUpdate (update : List K → ℕ → K → Option (List K)) : Prop :=
  ∀ kv i v kv', update kv i v = some kv' → kv' = kv.set i v ∧ kv'.Pairwise (· ≤ ·)

theorem foldl_set_length {β : Type} (l : List (Int × β)) (kv : List β) : (l.foldl (fun l iv => l.set iv.1.toNat iv.2) kv).length = kv.length := by
  induction l generalizing kv with
  | nil => rfl
  | cons p l ih => rw [List.foldl_cons, ih, List.length_set]

theorem foldl_set_get {β : Type} (l : List (Int × β)) (kv : List β) (hnd : (l.map (fun p => p.1.toNat)).Nodup) (hr : ∀ p ∈ l, p.1.toNat < kv.length) (j : ℕ) :
    (∀ p ∈ l, p.1.toNat ≠ j) → (l.foldl (fun l iv => l.set iv.1.toNat iv.2) kv)[j]? = kv[j]? := by
  intro h
  induction l generalizing kv with
  | nil => rfl
  | cons p l ih =>
    rw [List.foldl_cons, ih _ (List.nodup_cons.1 (by simpa only [List.map_cons] using hnd)).2 (fun q hq => by rw [List.length_set]; exact hr q (List.mem_cons_of_mem _ hq))
      (fun q hq => h q (List.mem_cons_of_mem _ hq)), List.getElem?_set, if_neg (h p (by simp))]

theorem foldl_set_get_mem {β : Type} (l : List (Int × β)) (kv : List β) (hnd : (l.map (fun p => p.1.toNat)).Nodup) (hr : ∀ p ∈ l, p.1.toNat < kv.length) :
    ∀ p ∈ l, (l.foldl (fun l iv => l.set iv.1.toNat iv.2) kv)[p.1.toNat]? = some p.2 := by
  induction l generalizing kv with
  | nil => simp
  | cons q l ih =>
    intro p hp
    rw [List.map_cons, List.nodup_cons] at hnd
    rw [List.foldl_cons]
    rcases List.mem_cons.1 hp with rfl | hp
    · rw [foldl_set_get l _ hnd.2 (fun q hq => by rw [List.length_set]; exact hr q (List.mem_cons_of_mem _ hq)) _
        (fun r hr2 he => hnd.1 (List.mem_map.2 ⟨r, hr2, he⟩)), List.getElem?_set, if_pos rfl, if_pos (hr p (by simp))]
    · exact ih _ hnd.2 (fun q hq => by rw [List.length_set]; exact hr q (List.mem_cons_of_mem _ hq)) p hp

theorem sliceIds_nodup {n : ℕ} {a b c : Option Int} {ids : List Int} (h : sliceIds n a b c = some ids) : (ids.map Int.toNat).Nodup := by
  have hr := sliceIds_range h
  unfold sliceIds at h
  split_ifs at h with h0
  simp only [Option.some.injEq] at h
  have hnd : ids.Nodup := by
    rw [← h]
    unfold arange
    apply List.Nodup.map _ List.nodup_range
    intro x y hxy
    simp only at hxy
    have : (x : Int) * c.getD 1 = (y : Int) * c.getD 1 := by omega
    have := Int.eq_of_mul_eq_mul_right h0 this
    omega
  rw [List.nodup_map_iff_inj_on hnd]
  intro x hx y hy hxy
  have := hr x hx
  have := hr y hy
  omega

/-- C26, success: a slice assignment that does not raise leaves a non-decreasing knot vector of the same length, with the given values at the positions of the
slice, in order, and all other knots unchanged. -/
theorem slice_assignment (valid : List K → Bool) (hv : Spec.IsCheck valid) (kv : List K) (a b c : Option Int) (values kv' : List K)
    (h : setSlice valid kv a b c values = .ok kv') :
    kv'.Pairwise (· ≤ ·) ∧ kv'.length = kv.length ∧
    ∃ ids, sliceIds kv.length a b c = some ids ∧ ids.length = values.length ∧ (∀ p ∈ ids.zip values, kv'[p.1.toNat]? = some p.2) ∧
      (∀ j : ℕ, (j : Int) ∉ ids → kv'[j]? = kv[j]?) := by
  unfold setSlice at h
  cases hs : sliceIds kv.length a b c with
  | none => rw [hs] at h; simp at h
  | some ids =>
    rw [hs] at h
    simp only at h
    split_ifs at h with h1 h2
    simp only [KvOutcome.ok.injEq] at h
    have hlen : ids.length = values.length := by simpa using h1
    have hr := sliceIds_range hs
    have hnd : ((ids.zip values).map (fun p => p.1.toNat)).Nodup := by
      have : (ids.zip values).map (fun p => p.1.toNat) = ids.map Int.toNat := by
        rw [← List.map_fst_zip (l₁ := ids) (l₂ := values) (by omega), List.map_map]
        rw [List.map_fst_zip (by omega)]
        rfl
      rw [this]
      exact sliceIds_nodup hs
    have hrz : ∀ p ∈ ids.zip values, p.1.toNat < kv.length := by
      intro p hp
      have := hr p.1 (List.of_mem_zip hp).1
      omega
    rw [← h]
    refine ⟨(hv _).1 h2, foldl_set_length _ _, ids, rfl, hlen, foldl_set_get_mem _ _ hnd hrz, ?_⟩
    intro j hj
    apply foldl_set_get _ _ hnd hrz
    intro p hp he
    apply hj
    have hp1 := (List.of_mem_zip hp).1
    have := hr p.1 hp1
    have : (j : Int) = p.1 := by omega
    rwa [this]

/-- C26, every sequence: as long as no assignment raises, the knot vector stays non-decreasing and keeps its length; wrong sizes, a zero step or a bad index raise
without effect. -/
theorem assignments_partial (valid : List K → Bool) (hv : Spec.IsCheck valid) (update : List K → ℕ → K → Option (List K)) (hu : Spec.IsUpdate update)
    (kv : List K) (hkv : kv.Pairwise (· ≤ ·)) (ops : List (KvOp K)) (kv' : List K)
    (h : ops.foldlM (fun kv op => match kvStep valid update kv op with | .ok k => some k | .raised _ => none) kv = some kv') :
    kv'.Pairwise (· ≤ ·) ∧ kv'.length = kv.length := by
  induction ops generalizing kv with
  | nil => simp at h; subst h; exact ⟨hkv, rfl⟩
  | cons op ops ih =>
    rw [List.foldlM_cons] at h
    cases h1 : kvStep valid update kv op with
    | raised k => rw [h1] at h; simp at h
    | ok k =>
      rw [h1] at h
      simp only [Option.bind_eq_bind, Option.bind_some] at h
      have : k.Pairwise (· ≤ ·) ∧ k.length = kv.length := by
        cases op with
        | slice a b c vs => obtain ⟨x, y, _⟩ := slice_assignment valid hv kv a b c vs k h1; exact ⟨x, y⟩
        | knot i v =>
          simp only [kvStep, setKnot] at h1
          cases h2 : Pointers.wrapId i kv.length with
          | none => rw [h2] at h1; simp at h1
          | some j =>
            rw [h2] at h1
            simp only at h1
            cases h3 : update kv j v with
            | none => rw [h3] at h1; simp at h1
            | some k' =>
              rw [h3] at h1
              simp only [KvOutcome.ok.injEq] at h1
              subst h1
              obtain ⟨e, hp⟩ := hu _ _ _ _ h3
              exact ⟨hp, by rw [e, List.length_set]⟩
        | whole vs =>
          simp only [kvStep, setKnotVector] at h1
          split_ifs at h1 with h2 h3
          simp only [KvOutcome.ok.injEq] at h1
          subst h1
          exact ⟨(hv _).1 h3, by simpa using Eq.symm (not_not.1 h2)⟩
      obtain ⟨x, y⟩ := ih k this.1 h
      exact ⟨x, by rw [y, this.2]⟩

/-- C26, rejected sizes: an assignment with the wrong number of values raises and leaves the knots unchanged. -/
theorem wrong_size_unchanged (valid : List K → Bool) (kv : List K) (a b c : Option Int) (values : List K) :
    ((∀ ids, sliceIds kv.length a b c = some ids → ids.length ≠ values.length) → setSlice valid kv a b c values = .raised kv) ∧
    (kv.length ≠ values.length → setKnotVector valid kv values = .raised kv) := by
  constructor
  · intro h
    unfold setSlice
    cases hs : sliceIds kv.length a b c with
    | none => rfl
    | some ids => simp only; rw [if_pos (h ids hs)]
  · intro h
    unfold setKnotVector
    rw [if_pos h]

/-- non-vacuity -/
example : setSlice (K := ℕ) (fun l => decide (l.Pairwise (· ≤ ·))) [0, 0, 1, 2, 2] (some 1) (some (-1)) (some 2) [1, 2] = .ok [0, 1, 1, 2, 2] := by decide

/-- the check used in the examples satisfies the contract -/
example : Spec.IsCheck (K := ℕ) (fun l => decide (l.Pairwise (· ≤ ·))) := fun l => by simp

/-- C26 fails: slice assignment and assignment of a whole knot vector raise after writing, and leave a knot vector that is not non-decreasing. -/
theorem assignment_not_atomic_violates :
    ∃ (valid : List ℕ → Bool) (kv : List ℕ), Spec.IsCheck valid ∧ kv.Pairwise (· ≤ ·) ∧
      (∃ kv', setSlice valid kv (some 1) (some 3) none [5, 1] = .raised kv' ∧ kv' ≠ kv ∧ ¬ kv'.Pairwise (· ≤ ·)) ∧
      (∃ kv', setKnotVector valid kv [0, 3, 1, 2] = .raised kv' ∧ kv' ≠ kv ∧ ¬ kv'.Pairwise (· ≤ ·)) :=
  ⟨fun l => decide (l.Pairwise (· ≤ ·)), [0, 0, 2, 2], fun l => by simp, by decide, ⟨[0, 5, 1, 2], by decide, by decide, by decide⟩,
    ⟨[0, 3, 1, 2], by decide, by decide, by decide⟩⟩

end Splinepy.ArraySet
