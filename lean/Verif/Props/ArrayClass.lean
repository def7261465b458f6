import Verif.Model.ArrayClass
import Mathlib.Algebra.BigOperators.Group.List.Basic
import Mathlib.Tactic.Ring
import Mathlib.Tactic.ByContra
import Mathlib.Data.List.Basic

/-!
C129: arrays of the C++ library address every element exactly once, and free their memory exactly once.
-/
namespace Splinepy.ArrayClass

/-! ### Specification -/

/-- Row-major position of an index: the last index runs fastest. -/
def Spec.rowMajor : List Nat → List Nat → Nat
  | _ :: ns, i :: is => i * ns.prod + Spec.rowMajor ns is
  | _, _ => 0

/-- An index of an array of this shape. -/
def Spec.IsIndex (shape ids : List Nat) : Prop := List.Forall₂ (fun i n => i < n) ids shape

/-- Assumptions about calls: the extents given together with a pointer, or later, do not exceed the memory. -/
def Spec.Allowed {α : Type} (s : State α) : Op α → Prop
  | .wrap b shape | .setData _ b shape => ∀ k, s.heap[b]? = some k → sizeOf shape ≤ k.vals.length
  | .setShape i shape => ∀ a b k, arr s i = some a → a.data = some b → s.heap[b]? = some k → sizeOf shape ≤ k.vals.length
  | _ => True

/-- All calls of a history meet the assumptions. -/
def Spec.AllAllowed {α : Type} : State α → List (Op α) → Prop
  | _, [] => True
  | s, op :: ops => Spec.Allowed s op ∧ ∀ r, step s op = some r → Spec.AllAllowed r.state ops

/-- The element of array `i` at an index; `none` if the memory is freed. -/
def Spec.read {α : Type} (s : State α) (i : Nat) (ids : List Nat) : Option α :=
  (arr s i).bind fun a => a.data.bind fun b => (s.heap[b]?).bind fun k => if k.freed then none else k.vals[Spec.rowMajor a.shape ids]?

/-- The array `i` exists and is responsible for its memory. -/
def Spec.Owner {α : Type} (s : State α) (i : Nat) (a : Arr) : Prop := arr s i = some a ∧ a.own = true

/-! ### Element access -/

theorem stridesLoop_prod (l : List Nat) : (stridesLoop l).2 = l.prod := by
  induction l with
  | nil => rfl
  | cons n l ih => simp [stridesLoop, ih, Nat.mul_comm]

theorem stridesLoop_length (l : List Nat) : (stridesLoop l).1.length = l.length := by
  induction l with
  | nil => rfl
  | cons n l ih => simp [stridesLoop, ih]

theorem stridesLoop_get (l : List Nat) (k : Nat) (hk : k < l.length) : (stridesLoop l).1.getD k 0 = (l.drop k).prod := by
  induction l generalizing k with
  | nil => simp at hk
  | cons n l ih =>
    cases k with
    | zero => simp [stridesLoop, stridesLoop_prod, Nat.mul_comm]
    | succ k =>
      have := ih k (by simpa using hk)
      simpa [stridesLoop] using this

theorem sizeOf_prod (shape : List Nat) (h : shape ≠ []) : sizeOf shape = shape.prod := by
  match shape, h with
  | [n], _ => simp [sizeOf]
  | n :: m :: l, _ => simp [sizeOf, stridesLoop_prod, Nat.mul_comm]

/-- The accumulated offset: `k` strides have been used. -/
theorem remaining_eq (l : List Nat) : ∀ (is : List Nat) (index k : Nat), is ≠ [] → is.length + k = l.length + 1 → 0 < k →
    remaining (stridesLoop l).1 index k is = index + Spec.rowMajor (l.drop (k - 1)) is := by
  intro is
  induction is with
  | nil => intro _ _ h; exact absurd rfl h
  | cons i is ih =>
    intro index k _ hlen hk
    have hd : ∃ n, l.drop (k - 1) = n :: l.drop k := by
      have h1 : k - 1 < l.length := by simp at hlen; omega
      refine ⟨l[k - 1], ?_⟩
      rw [List.drop_eq_getElem_cons h1, show k - 1 + 1 = k by omega]
    obtain ⟨n, hd⟩ := hd
    cases is with
    | nil =>
      have hz : l.drop k = [] := by simp at hlen; simp; omega
      simp [remaining, hd, Spec.rowMajor, hz]
    | cons j is =>
      have hkl : k < l.length := by simp at hlen; omega
      rw [remaining, ih _ _ (by simp) (by simp at hlen ⊢; omega) (by omega), hd, Nat.add_sub_cancel, stridesLoop_get l k hkl, Spec.rowMajor]
      · ring
      · simp

/-- `array(i, j, …)` addresses the row-major position. -/
theorem offset_rowMajor (shape ids : List Nat) (h : ids.length = shape.length) : offset (stridesOf shape) ids = Spec.rowMajor shape ids := by
  match shape, ids, h with
  | [], [], _ => rfl
  | [n], [i], _ => simp [offset, Spec.rowMajor]
  | n :: m :: l, i :: j :: is, h =>
    have h' : is.length = l.length := by simpa using h
    rw [offset, stridesOf, remaining_eq (m :: l) (j :: is) _ 1 (by simp) (by simp [h']) (by omega), stridesLoop_get (m :: l) 0 (by simp), Spec.rowMajor]
    · simp
    · simp

theorem rowMajor_lt {shape ids : List Nat} (h : Spec.IsIndex shape ids) : ids = [] ∨ Spec.rowMajor shape ids < shape.prod := by
  induction h with
  | nil => exact .inl rfl
  | @cons i n is ns hi hr ih =>
    right
    rw [Spec.rowMajor, List.prod_cons]
    have : Spec.rowMajor ns is < ns.prod := by
      rcases ih with rfl | h
      · cases hr; simp [Spec.rowMajor]
      · exact h
    calc i * ns.prod + Spec.rowMajor ns is < i * ns.prod + ns.prod := by omega
      _ = (i + 1) * ns.prod := by ring
      _ ≤ n * ns.prod := Nat.mul_le_mul_right _ hi

theorem rowMajor_inj {shape ids ids' : List Nat} (h : Spec.IsIndex shape ids) (h' : Spec.IsIndex shape ids') (he : Spec.rowMajor shape ids = Spec.rowMajor shape ids') : ids = ids' := by
  induction h generalizing ids' with
  | nil => cases h'; rfl
  | @cons i n is ns hi hr ih =>
    cases h' with
    | @cons i' _ is' _ hi' hr' =>
      rw [Spec.rowMajor, Spec.rowMajor] at he
      have b : ∀ {js : List Nat}, Spec.IsIndex ns js → Spec.rowMajor ns js < ns.prod := by
        intro js hj
        rcases rowMajor_lt hj with rfl | h
        · cases hj; simp [Spec.rowMajor]
        · exact h
      have b1 := b hr
      have b2 := b hr'
      have hd : ∀ (x r : Nat), r < ns.prod → (x * ns.prod + r) / ns.prod = x ∧ (x * ns.prod + r) % ns.prod = r := by
        intro x r hr
        constructor
        · rw [Nat.mul_comm, Nat.mul_add_div (by omega), Nat.div_eq_of_lt hr, Nat.add_zero]
        · rw [Nat.mul_comm, Nat.mul_add_mod, Nat.mod_eq_of_lt hr]
      have e1 := hd i _ b1
      have e2 := hd i' _ b2
      rw [he] at e1
      rw [e1.1.symm.trans e2.1, ih hr' (e1.2.symm.trans e2.2)]

theorem rowMajor_surj (shape : List Nat) (k : Nat) (hk : k < shape.prod) : ∃ ids, Spec.IsIndex shape ids ∧ Spec.rowMajor shape ids = k := by
  induction shape generalizing k with
  | nil => exact ⟨[], .nil, by simp at hk; simp [Spec.rowMajor, hk]⟩
  | cons n ns ih =>
    rw [List.prod_cons] at hk
    have hp : 0 < ns.prod := by
      rcases Nat.eq_zero_or_pos ns.prod with h | h
      · rw [h] at hk; simp at hk
      · exact h
    obtain ⟨is, h1, h2⟩ := ih (k % ns.prod) (Nat.mod_lt _ hp)
    refine ⟨k / ns.prod :: is, .cons ?_ h1, ?_⟩
    · exact (Nat.div_lt_iff_lt_mul hp).2 hk
    · rw [Spec.rowMajor, h2]
      exact Nat.div_add_mod' k _

/-- C129: in an array of any number of dimensions, every index within the shape addresses an element of the array, different indices address different elements, and every element has an
index. -/
theorem index_bijective (shape : List Nat) (h : shape ≠ []) :
    (∀ ids, Spec.IsIndex shape ids → offset (stridesOf shape) ids < sizeOf shape) ∧
    (∀ ids ids', Spec.IsIndex shape ids → Spec.IsIndex shape ids' → offset (stridesOf shape) ids = offset (stridesOf shape) ids' → ids = ids') ∧
    ∀ k < sizeOf shape, ∃ ids, Spec.IsIndex shape ids ∧ offset (stridesOf shape) ids = k := by
  have hl : ∀ {ids}, Spec.IsIndex shape ids → ids.length = shape.length := fun hi => List.Forall₂.length_eq hi
  refine ⟨fun ids hi => ?_, fun ids ids' hi hi' he => ?_, fun k hk => ?_⟩
  · rw [offset_rowMajor _ _ (hl hi), sizeOf_prod _ h]
    rcases rowMajor_lt hi with rfl | h'
    · cases hi; exact absurd rfl h
    · exact h'
  · rw [offset_rowMajor _ _ (hl hi), offset_rowMajor _ _ (hl hi')] at he
    exact rowMajor_inj hi hi' he
  · rw [sizeOf_prod _ h] at hk
    obtain ⟨ids, hi, he⟩ := rowMajor_surj shape k hk
    exact ⟨ids, hi, by rw [offset_rowMajor _ _ (hl hi)]; exact he⟩

example : Spec.IsIndex [2, 3, 4] [1, 2, 3] ∧ offset (stridesOf [2, 3, 4]) [1, 2, 3] = 23 ∧ sizeOf [2, 3, 4] = 24 :=
  ⟨.cons (by omega) (.cons (by omega) (.cons (by omega) .nil)), rfl, rfl⟩

/-! ### Memory -/

variable {α : Type}

/-- The members of an array fit to each other and to the memory. -/
def Fit (s : State α) (a : Arr) : Prop :=
  a.strides = stridesOf a.shape ∧ a.size = sizeOf a.shape ∧ ∀ b, a.data = some b → ∃ k, s.heap[b]? = some k ∧ a.size ≤ k.vals.length

/-- The memory of an owner is from `new[]` and not freed. -/
def Own (s : State α) (a : Arr) : Prop := ∃ b k, a.data = some b ∧ s.heap[b]? = some k ∧ k.made = true ∧ k.freed = false

structure Inv (s : State α) : Prop where
  own : ∀ i a, arr s i = some a → a.own = true → Own s a
  uniq : ∀ i j a a', arr s i = some a → arr s j = some a' → a.own = true → a'.own = true → a.data = a'.data → i = j
  fit : ∀ i a, arr s i = some a → Fit s a

theorem inv_empty : Inv ({} : State α) := ⟨by simp [arr], by simp [arr], by simp [arr]⟩

theorem arr_set {s : State α} {i j : Nat} {x : Option Arr} {a : Arr} (h : arr { s with arrs := s.arrs.set i x } j = some a) : (j = i ∧ x = some a) ∨ (j ≠ i ∧ arr s j = some a) := by
  unfold arr at h ⊢
  by_cases hij : j = i
  · subst hij
    left
    refine ⟨rfl, ?_⟩
    by_cases hl : j < s.arrs.length
    · simpa [hl] using h
    · rw [List.getElem?_eq_none (by simp; omega)] at h; simp at h
  · right
    refine ⟨hij, ?_⟩
    rw [List.getElem?_set_ne (fun h => hij h.symm)] at h
    exact h

theorem arr_append {s : State α} {j : Nat} {x a : Arr} (h : arr (addArr s x) j = some a) : (j = s.arrs.length ∧ x = a) ∨ arr s j = some a := by
  unfold arr addArr at h
  unfold arr
  rcases Nat.lt_trichotomy j s.arrs.length with hl | hl | hl
  · right; rw [List.getElem?_append_left hl] at h; exact h
  · left; subst hl; simp at h; exact ⟨rfl, h⟩
  · rw [List.getElem?_eq_none (by simp; omega)] at h; simp at h

/-- Replacing the members of an array. -/
theorem Inv.put {s : State α} (h : Inv s) (i : Nat) (x : Option Arr) (hf : ∀ a, x = some a → Fit s a)
    (ho : ∀ a, x = some a → a.own = true → Own s a ∧ ∀ j a', j ≠ i → arr s j = some a' → a'.own = true → a'.data ≠ a.data) :
    Inv { s with arrs := s.arrs.set i x } := by
  refine ⟨fun j a hj hown => ?_, fun j k a a' hj hk hja hka hd => ?_, fun j a hj => ?_⟩
  · rcases arr_set hj with ⟨rfl, hx⟩ | ⟨_, hx⟩
    · exact (ho a hx hown).1
    · exact h.own j a hx hown
  · rcases arr_set hj with ⟨rfl, hx⟩ | ⟨hji, hx⟩ <;> rcases arr_set hk with ⟨rfl, hy⟩ | ⟨hki, hy⟩
    · rfl
    · exact absurd hd.symm ((ho a hx hja).2 k a' hki hy hka)
    · exact absurd hd ((ho a' hy hka).2 j a hji hx hja)
    · exact h.uniq j k a a' hx hy hja hka hd
  · rcases arr_set hj with ⟨rfl, hx⟩ | ⟨_, hx⟩
    · exact hf a hx
    · exact h.fit j a hx

/-- A new array. -/
theorem Inv.add {s : State α} (h : Inv s) (x : Arr) (hf : Fit s x)
    (ho : x.own = true → Own s x ∧ ∀ j a', arr s j = some a' → a'.own = true → a'.data ≠ x.data) : Inv (addArr s x) := by
  refine ⟨fun j a hj hown => ?_, fun j k a a' hj hk hja hka hd => ?_, fun j a hj => ?_⟩
  · rcases arr_append hj with ⟨rfl, rfl⟩ | hx
    · exact (ho hown).1
    · exact h.own j a hx hown
  · rcases arr_append hj with ⟨rfl, rfl⟩ | hx <;> rcases arr_append hk with ⟨rfl, rfl⟩ | hy
    · rfl
    · exact absurd hd.symm ((ho hja).2 k a' hy hka)
    · exact absurd hd ((ho hka).2 j a hx hja)
    · exact h.uniq j k a a' hx hy hja hka hd
  · rcases arr_append hj with ⟨rfl, rfl⟩ | hx
    · exact hf
    · exact h.fit j a hx

/-- Memory changes that keep blocks, and keep the blocks of owners allocated. -/
theorem Inv.heap {s : State α} (h : Inv s) (heap' : List (Block α)) (hk : ∀ b k, s.heap[b]? = some k → ∃ k', heap'[b]? = some k' ∧ k'.made = k.made ∧ k'.vals.length = k.vals.length ∧
      ((∃ i a, arr s i = some a ∧ a.own = true ∧ a.data = some b) → k'.freed = k.freed)) : Inv { s with heap := heap' } := by
  refine ⟨fun j a hj hown => ?_, fun j k a a' hj hk' => h.uniq j k a a' hj hk', fun j a hj => ?_⟩
  · obtain ⟨b, k, hb, hkb, hm, hfr⟩ := h.own j a hj hown
    obtain ⟨k', h1, h2, h3, h4⟩ := hk b k hkb
    exact ⟨b, k', hb, h1, h2.trans hm, (h4 ⟨j, a, hj, hown, hb⟩).trans hfr⟩
  · obtain ⟨h1, h2, h3⟩ := h.fit j a hj
    refine ⟨h1, h2, fun b hb => ?_⟩
    obtain ⟨k, hkb, hl⟩ := h3 b hb
    obtain ⟨k', hk1, _, hk3, _⟩ := hk b k hkb
    exact ⟨k', hk1, hk3 ▸ hl⟩

theorem Inv.appendBlock {s : State α} (h : Inv s) (x : Block α) : Inv { s with heap := s.heap ++ [x] } :=
  h.heap _ fun b k hb => ⟨k, by rw [List.getElem?_append_left (List.getElem?_eq_some_iff.1 hb).1]; exact hb, rfl, rfl, fun _ => rfl⟩

theorem Inv.setVals {s : State α} (h : Inv s) {b : Nat} {k : Block α} (hb : s.heap[b]? = some k) (vals : List α) (hl : vals.length = k.vals.length) :
    Inv { s with heap := s.heap.set b { k with vals := vals } } := by
  refine h.heap _ fun c k' hc => ?_
  by_cases hcb : c = b
  · subst hcb
    rw [hb] at hc
    obtain rfl := Option.some.inj hc
    exact ⟨{ k with vals := vals }, by simp [(List.getElem?_eq_some_iff.1 hb).1], rfl, hl, fun _ => rfl⟩
  · exact ⟨k', by rw [List.getElem?_set_ne (fun h => hcb h.symm)]; exact hc, rfl, rfl, fun _ => rfl⟩

/-- `DestroyData` is always defined, and afterwards the array can get other members. -/
theorem Inv.destroy {s : State α} (h : Inv s) {i : Nat} {a : Arr} (hi : arr s i = some a) : ∃ s1, destroyData s a = some s1 ∧ s1.arrs = s.arrs ∧ s1.heap.length = s.heap.length ∧
    (∀ b k, s.heap[b]? = some k → ∃ k', s1.heap[b]? = some k' ∧ k'.made = k.made ∧ k'.vals = k.vals ∧ k'.freed = (k.freed || (a.own && a.data == some b))) ∧
    ∀ x : Option Arr, (∀ a', x = some a' → a'.own = false ∧ Fit s a') → Inv { s1 with arrs := s1.arrs.set i x } := by
  unfold destroyData
  cases ho : a.own with
  | false =>
    refine ⟨s, rfl, rfl, rfl, fun b k hb => ⟨k, hb, rfl, rfl, by simp⟩, fun x hx => h.put i x (fun a' ha => (hx a' ha).2) fun a' ha hown => ?_⟩
    rw [(hx a' ha).1] at hown; simp at hown
  | true =>
    obtain ⟨b, k, hb, hk, hm, hf⟩ := h.own i a hi ho
    simp only [hb]
    have hbl := (List.getElem?_eq_some_iff.1 hk).1
    refine ⟨{ s with heap := s.heap.set b { k with freed := true } }, by simp [free, hk, hm, hf], rfl, by simp, fun c kc hc => ?_, fun x hx => ?_⟩
    · by_cases hcb : c = b
      · subst hcb
        rw [hk] at hc
        obtain rfl := Option.some.inj hc
        exact ⟨{ k with freed := true }, by simp [hbl], rfl, rfl, by simp⟩
      · exact ⟨kc, by simp only; rw [List.getElem?_set_ne (fun h => hcb h.symm)]; exact hc, rfl, rfl, by simp only [ho, Bool.true_and]; rw [show (some b == some c) = false by simp; omega]; simp⟩
    · have h0 := h.put i x (fun a' ha => (hx a' ha).2) fun a' ha hown => by rw [(hx a' ha).1] at hown; simp at hown
      refine h0.heap _ fun c kc hc => ?_
      by_cases hcb : c = b
      · subst hcb
        have hc' : s.heap[c]? = some kc := hc
        rw [hk] at hc'
        obtain rfl := Option.some.inj hc'
        refine ⟨{ k with freed := true }, by simp [hbl], rfl, rfl, ?_⟩
        rintro ⟨j, a', hj, hown, hd⟩
        rcases arr_set hj with ⟨rfl, he⟩ | ⟨hne, he⟩
        · rw [(hx a' he).1] at hown; simp at hown
        · exact absurd (h.uniq j i a' a he hi hown ho (hd.trans hb.symm)) hne
      · exact ⟨kc, by rw [List.getElem?_set_ne (fun h => hcb h.symm)]; exact hc, rfl, rfl, fun _ => rfl⟩

theorem store_inv {s s1 : State α} (h : Inv s) {b : Option Nat} {vals : List α} (hs : store s b vals = some s1) : Inv s1 ∧ s1.arrs = s.arrs ∧ s1.heap.length = s.heap.length ∧
    ∀ (c : Nat) (k : Block α), s.heap[c]? = some k → ∃ k' : Block α, s1.heap[c]? = some k' ∧ k'.made = k.made ∧ k'.freed = k.freed ∧ k'.vals.length = k.vals.length := by
  unfold store at hs
  split at hs
  · simp only [Option.some.injEq] at hs; subst hs
    exact ⟨h, rfl, rfl, fun c k hc => ⟨k, hc, rfl, rfl, rfl⟩⟩
  · split at hs
    · simp at hs
    · split at hs
      · simp at hs
      · rename_i b _ k hk
        split at hs
        · rename_i hh
          simp only [Option.some.injEq] at hs; subst hs
          have hl : (vals ++ k.vals.drop vals.length).length = k.vals.length := by simp; omega
          refine ⟨h.setVals hk _ hl, rfl, by simp, fun c k' hc => ?_⟩
          by_cases hcb : c = b
          · subst hcb
            rw [hk] at hc
            obtain rfl := Option.some.inj hc
            exact ⟨{ k with vals := vals ++ k.vals.drop vals.length }, by simp [(List.getElem?_eq_some_iff.1 hk).1], rfl, rfl, hl⟩
          · exact ⟨k', by simp only; rw [List.getElem?_set_ne (fun h => hcb h.symm)]; exact hc, rfl, rfl, rfl⟩
        · simp at hs

theorem arr_lt {s : State α} {i : Nat} {a : Arr} (h : arr s i = some a) : i < s.arrs.length := by
  unfold arr at h
  by_contra hl
  rw [List.getElem?_eq_none (by omega)] at h
  simp at h

theorem arr_self {s : State α} {i : Nat} (x : Option Arr) (h : i < s.arrs.length) : arr { s with arrs := s.arrs.set i x } i = x := by
  simp [arr, h]

theorem Inv.lt {s : State α} (h : Inv s) {i : Nat} {a : Arr} (hi : arr s i = some a) {b : Nat} (hb : a.data = some b) : b < s.heap.length := by
  obtain ⟨k, hk, _⟩ := (h.fit i a hi).2.2 b hb
  exact (List.getElem?_eq_some_iff.1 hk).1

theorem step_inv {s : State α} (h : Inv s) {op : Op α} (hok : Spec.Allowed s op) {r : Res α} (hr : step s op = some r) : Inv r.state := by
  cases op with
  | foreign vals => simp only [step, Option.some.injEq] at hr; subst hr; exact h.appendBlock _
  | default =>
    simp only [step, Option.some.injEq] at hr; subst hr
    exact h.add _ ⟨rfl, rfl, by simp [empty]⟩ (by simp [empty])
  | alloc shape v =>
    simp only [step, Option.some.injEq] at hr; subst hr
    refine (h.appendBlock _).add _ ⟨rfl, rfl, fun b hb => ?_⟩ fun _ => ⟨⟨s.heap.length, ⟨List.replicate (sizeOf shape) v, true, false⟩, rfl, by simp, rfl, rfl⟩, fun j a hj ho hd => ?_⟩
    · simp only [Option.some.injEq] at hb; subst hb
      exact ⟨_, by simp; rfl, by simp⟩
    · have := h.lt (i := j) (a := a) hj hd
      omega
  | wrap b shape =>
    simp only [step] at hr
    split at hr
    · rename_i hb
      simp only [Option.some.injEq] at hr; subst hr
      refine h.add _ ⟨rfl, rfl, fun c hc => ?_⟩ (by simp)
      simp only [Option.some.injEq] at hc; subst hc
      exact ⟨s.heap[b], by simp [hb], hok _ (by simp [hb])⟩
    · simp at hr
  | copy i v =>
    obtain ⟨o, ho, hr⟩ := Option.bind_eq_some_iff.1 hr
    obtain ⟨vals, hv, hr⟩ := Option.bind_eq_some_iff.1 hr
    obtain ⟨s1, hs1, hr⟩ := Option.map_eq_some_iff.1 hr
    subst hr
    obtain ⟨h1, h2, h3, h4⟩ := store_inv (h.appendBlock _ : Inv (newBlock s v o.size)) hs1
    obtain ⟨k', hk1, hk2, hk3, hk4⟩ := h4 s.heap.length ⟨List.replicate o.size v, true, false⟩ (by simp [newBlock])
    refine h1.add _ ⟨(h.fit i o ho).1, (h.fit i o ho).2.1, fun b hb => ?_⟩ fun _ => ⟨⟨_, k', rfl, hk1, hk2, hk3⟩, fun j a hj ho' hd => ?_⟩
    · simp only [Option.some.injEq] at hb; subst hb
      exact ⟨k', hk1, by rw [hk4]; simp⟩
    · have hj' : arr s j = some a := by unfold arr at hj ⊢; rw [h2] at hj; exact hj
      have := h.lt hj' hd
      omega
  | move i =>
    obtain ⟨o, ho, hr⟩ := Option.map_eq_some_iff.1 hr
    subst hr
    have h1 : Inv (setArr s i { o with own := false }) := h.put i _ (fun a ha => by simp only [Option.some.injEq] at ha; subst ha; exact h.fit i o ho)
      (fun a ha hown => by simp only [Option.some.injEq] at ha; subst ha; simp at hown)
    refine h1.add o (h.fit i o ho) fun hown => ⟨h.own i o ho hown, fun j a hj ha hd => ?_⟩
    rcases arr_set hj with ⟨rfl, he⟩ | ⟨hne, he⟩
    · simp only [Option.some.injEq] at he; subst he; simp at ha
    · exact hne (h.uniq j i a o he ho ha hown hd)
  | assign i j =>
    obtain ⟨a, ha, hr⟩ := Option.bind_eq_some_iff.1 hr
    obtain ⟨o, ho, hr⟩ := Option.bind_eq_some_iff.1 hr
    split at hr
    · simp only [Option.some.injEq] at hr; subst hr; exact h
    · rename_i hsz
      obtain ⟨vals, hv, hr⟩ := Option.bind_eq_some_iff.1 hr
      obtain ⟨s1, hs1, hr⟩ := Option.map_eq_some_iff.1 hr
      subst hr
      have hsz' : a.size = o.size := by simpa using hsz
      obtain ⟨h1, h2, h3, h4⟩ := store_inv h hs1
      have hsame : ∀ k, arr s1 k = arr s k := fun k => by unfold arr; rw [h2]
      have ha1 : arr s1 i = some a := (hsame i).trans ha
      refine h1.put i _ (fun a' ha' => ?_) fun a' ha' hown => ?_
      · simp only [Option.some.injEq] at ha'; subst ha'
        exact ⟨(h.fit j o ho).1, hsz'.trans (h.fit j o ho).2.1, (h1.fit i a ha1).2.2⟩
      · simp only [Option.some.injEq] at ha'; subst ha'
        exact ⟨h1.own i a ha1 hown, fun k a' hk hk' hown' hd => hk (h1.uniq k i a' a hk' ha1 hown' hown hd)⟩
  | moveAssign i j =>
    obtain ⟨a, ha, hr⟩ := Option.bind_eq_some_iff.1 hr
    obtain ⟨s1, hs1, hr⟩ := Option.bind_eq_some_iff.1 hr
    simp only at hr
    obtain ⟨o, ho, hr⟩ := Option.map_eq_some_iff.1 hr
    subst hr
    obtain ⟨s1', hs1', h2, h3, h4, h5⟩ := h.destroy ha
    rw [hs1] at hs1'
    obtain rfl := Option.some.inj hs1'
    have hil : i < s1.arrs.length := h2 ▸ arr_lt ha
    have hs2 : Inv (setArr s1 i { a with own := false, data := none }) := h5 _ fun a' ha' => by
      simp only [Option.some.injEq] at ha'; subst ha'
      exact ⟨rfl, (h.fit i a ha).1, (h.fit i a ha).2.1, by simp⟩
    by_cases hij : j = i
    · subst hij
      have ho' : o = { a with own := false, data := none } := by
        have := arr_self (s := s1) (some { a with own := false, data := none }) hil
        exact (Option.some.inj (this.symm.trans ho)).symm
      subst ho'
      have e : setArr (setArr s1 j { a with own := false, data := none }) j { a with own := false, data := none } = setArr s1 j { a with own := false, data := none } := by
        simp [setArr]
      simp only [e]
      rw [ho]
      simp only
      rw [e]
      exact hs2
    · have hoj : arr (setArr (setArr s1 i { a with own := false, data := none }) i o) j = some o := by
        unfold arr setArr at ho ⊢
        simp only at ho ⊢
        rw [List.getElem?_set_ne (fun h => hij h.symm)] at ho ⊢
        rw [List.getElem?_set_ne (fun h => hij h.symm)]
        exact ho
      simp only [hoj]
      -- first take the memory away from `j`, then give it to `i`
      have h3' : Inv (setArr (setArr s1 i { a with own := false, data := none }) j { o with own := false }) := hs2.put j _
        (fun a' ha' => by simp only [Option.some.injEq] at ha'; subst ha'; exact hs2.fit j o ho) (fun a' ha' hown => by simp only [Option.some.injEq] at ha'; subst ha'; simp at hown)
      have e : setArr (setArr (setArr s1 i { a with own := false, data := none }) i o) j { o with own := false } =
          setArr (setArr (setArr s1 i { a with own := false, data := none }) j { o with own := false }) i o := by
        simp only [setArr]
        congr 1
        rw [List.set_comm _ _ hij]
      rw [e]
      refine h3'.put i _ (fun a' ha' => ?_) fun a' ha' hown => ?_
      · simp only [Option.some.injEq] at ha'; subst ha'; exact hs2.fit j o ho
      · simp only [Option.some.injEq] at ha'; subst ha'
        refine ⟨hs2.own j o ho hown, fun k a' hk hk' hown' hd => ?_⟩
        rcases arr_set hk' with ⟨rfl, he⟩ | ⟨hne, he⟩
        · simp only [Option.some.injEq] at he; subst he; simp at hown'
        · exact hne (hs2.uniq k j a' o he ho hown' hown hd)
  | destroy i =>
    obtain ⟨a, ha, hr⟩ := Option.bind_eq_some_iff.1 hr
    obtain ⟨s1, hs1, hr⟩ := Option.map_eq_some_iff.1 hr
    subst hr
    obtain ⟨s1', hs1', h2, h3, h4, h5⟩ := h.destroy ha
    rw [hs1] at hs1'
    obtain rfl := Option.some.inj hs1'
    exact h5 none (by simp)
  | setData i b shape =>
    simp only [step] at hr
    split at hr
    · rename_i hb
      obtain ⟨a, ha, hr⟩ := Option.bind_eq_some_iff.1 hr
      obtain ⟨s1, hs1, hr⟩ := Option.map_eq_some_iff.1 hr
      subst hr
      obtain ⟨s1', hs1', h2, h3, h4, h5⟩ := h.destroy ha
      rw [hs1] at hs1'
      obtain rfl := Option.some.inj hs1'
      refine h5 _ fun a' ha' => ?_
      simp only [Option.some.injEq] at ha'; subst ha'
      refine ⟨rfl, rfl, rfl, fun c hc => ?_⟩
      simp only [Option.some.injEq] at hc; subst hc
      exact ⟨s.heap[b], by simp [hb], hok _ (by simp [hb])⟩
    · simp at hr
  | reallocate i shape v =>
    obtain ⟨a, ha, hr⟩ := Option.bind_eq_some_iff.1 hr
    obtain ⟨s1, hs1, hr⟩ := Option.map_eq_some_iff.1 hr
    subst hr
    obtain ⟨s1', hs1', h2, h3, h4, h5⟩ := h.destroy ha
    rw [hs1] at hs1'
    obtain rfl := Option.some.inj hs1'
    have h6 : Inv { s1 with arrs := s1.arrs.set i none } := h5 none (by simp)
    have h7 := (h6.appendBlock ⟨List.replicate (sizeOf shape) v, true, false⟩).put i (some ⟨true, some s.heap.length, sizeOf shape, stridesOf shape, shape⟩)
      (fun a' ha' => by
        simp only [Option.some.injEq] at ha'; subst ha'
        refine ⟨rfl, rfl, fun b hb => ?_⟩
        simp only [Option.some.injEq] at hb; subst hb
        exact ⟨⟨List.replicate (sizeOf shape) v, true, false⟩, by simp [← h3], by simp⟩)
      (fun a' ha' _ => by
        simp only [Option.some.injEq] at ha'; subst ha'
        refine ⟨⟨s.heap.length, ⟨List.replicate (sizeOf shape) v, true, false⟩, rfl, by simp [← h3], rfl, rfl⟩, fun j a' hj hj' hown hd => ?_⟩
        have := h6.lt (i := j) (a := a') hj' hd
        simp only at this
        omega)
    have e : (({ s1 with arrs := s1.arrs.set i none } : State α).arrs.set i (some ⟨true, some s.heap.length, sizeOf shape, stridesOf shape, shape⟩)) =
        s1.arrs.set i (some ⟨true, some s.heap.length, sizeOf shape, stridesOf shape, shape⟩) := by simp
    simp only [e] at h7
    exact h7
  | transfer i =>
    obtain ⟨a, ha, hr⟩ := Option.map_eq_some_iff.1 hr
    subst hr
    exact h.put i _ (fun a' ha' => by simp only [Option.some.injEq] at ha'; subst ha'; exact h.fit i a ha)
      (fun a' ha' hown => by simp only [Option.some.injEq] at ha'; subst ha'; simp at hown)
  | setShape i shape =>
    obtain ⟨a, ha, hr⟩ := Option.map_eq_some_iff.1 hr
    subst hr
    refine h.put i _ (fun a' ha' => ?_) (fun a' ha' hown => ?_)
    · simp only [Option.some.injEq] at ha'; subst ha'
      refine ⟨rfl, rfl, fun b hb => ?_⟩
      obtain ⟨k, hk, _⟩ := (h.fit i a ha).2.2 b hb
      exact ⟨k, hk, hok a b k ha hb hk⟩
    · simp only [Option.some.injEq] at ha'; subst ha'
      exact ⟨h.own i a ha hown, fun k a' hk hk' hown' hd => hk (h.uniq k i a' a hk' ha hown' hown hd)⟩
  | write i ids v =>
    obtain ⟨a, ha, hr⟩ := Option.bind_eq_some_iff.1 hr
    obtain ⟨b, hb, hr⟩ := Option.bind_eq_some_iff.1 hr
    obtain ⟨k, hk, hr⟩ := Option.bind_eq_some_iff.1 hr
    split at hr
    · simp only [Option.some.injEq] at hr; subst hr
      exact h.setVals hk _ (by simp)
    · simp at hr

theorem run_inv : ∀ {ops : List (Op α)} {s s' : State α}, Inv s → Spec.AllAllowed s ops → run s ops = some s' → Inv s'
  | [], s, s', h, _, hr => by
    simp only [run, List.foldlM_nil, Option.pure_def, Option.some.injEq] at hr
    subst hr; exact h
  | op :: ops, s, s', h, hok, hr => by
    simp only [run, List.foldlM_cons] at hr
    obtain ⟨s1, h1, hr⟩ := Option.bind_eq_some_iff.1 hr
    obtain ⟨r, h2, rfl⟩ := Option.map_eq_some_iff.1 h1
    exact run_inv (step_inv h hok.1 h2) (hok.2 r h2) hr

/-! ### No leak -/

/-- Memory from `new[]` that is not freed has an owner. -/
def NoLeak (s : State α) : Prop := ∀ (b : Nat) (k : Block α), s.heap[b]? = some k → k.made = true → k.freed = false → ∃ i a, Spec.Owner s i a ∧ a.data = some b

theorem arr_ne {s : State α} {i j : Nat} (x : Option Arr) (h : j ≠ i) : arr { s with arrs := s.arrs.set i x } j = arr s j := by
  simp [arr, List.getElem?_set_ne (fun h' => h h'.symm)]

theorem arr_addArr {s : State α} {j : Nat} {a : Arr} (x : Arr) (h : arr s j = some a) : arr (addArr s x) j = some a := by
  have := arr_lt h
  unfold arr addArr
  simp only
  rw [List.getElem?_append_left this]
  exact h

theorem arr_new (s : State α) (x : Arr) : arr (addArr s x) s.arrs.length = some x := by simp [arr, addArr]

/-- After `DestroyData` of array `i`, the members of which are replaced, every block that is left has another owner. -/
theorem NoLeak.destroy {s s1 : State α} (h : Inv s) (hl : NoLeak s) {i : Nat} {a : Arr} (hi : arr s i = some a) (hs : destroyData s a = some s1) (x : Option Arr) (b : Nat) (k : Block α)
    (hb : s1.heap[b]? = some k) (hm : k.made = true) (hf : k.freed = false) : ∃ j a', j ≠ i ∧ arr { s1 with arrs := s1.arrs.set i x } j = some a' ∧ arr s j = some a' ∧ a'.own = true ∧ a'.data = some b := by
  obtain ⟨s1', hs1', h2, h3, h4, _⟩ := h.destroy hi
  rw [hs] at hs1'
  obtain rfl := Option.some.inj hs1'
  have hbl : b < s.heap.length := h3 ▸ (List.getElem?_eq_some_iff.1 hb).1
  obtain ⟨k', hk1, hk2, _, hk4⟩ := h4 b s.heap[b] (by simp [hbl])
  rw [hb] at hk1
  obtain rfl := Option.some.inj hk1
  rw [hf] at hk4
  have hk4 := hk4.symm
  simp only [Bool.or_eq_false_iff] at hk4
  obtain ⟨j, a', ⟨hj, ho⟩, hd⟩ := hl b s.heap[b] (by simp [hbl]) (hk2 ▸ hm) hk4.1
  have hne : j ≠ i := by
    rintro rfl
    rw [hi] at hj
    obtain rfl := Option.some.inj hj
    simp [ho, hd] at hk4
  refine ⟨j, a', hne, ?_, hj, ho, hd⟩
  rw [arr_ne _ hne]
  unfold arr at hj ⊢
  rw [h2]; exact hj

theorem step_leak {s : State α} (h : Inv s) (hl : NoLeak s) {op : Op α} (hn : ∀ i, op ≠ .transfer i) {r : Res α} (hr : step s op = some r) : NoLeak r.state := by
  cases op with
  | foreign vals =>
    simp only [step, Option.some.injEq] at hr; subst hr
    intro b k hb hm hf
    rcases Nat.lt_or_ge b s.heap.length with hlt | hge
    · simp only at hb
      rw [List.getElem?_append_left hlt] at hb
      exact hl b k hb hm hf
    · simp only at hb
      rw [List.getElem?_append_right hge] at hb
      cases hd : b - s.heap.length with
      | zero => rw [hd] at hb; simp at hb; subst hb; simp at hm
      | succ n => rw [hd] at hb; simp at hb
  | default =>
    simp only [step, Option.some.injEq] at hr; subst hr
    intro b k hb hm hf
    obtain ⟨i, a, ⟨h1, h2⟩, h3⟩ := hl b k hb hm hf
    exact ⟨i, a, ⟨arr_addArr _ h1, h2⟩, h3⟩
  | alloc shape v =>
    simp only [step, Option.some.injEq] at hr; subst hr
    intro b k hb hm hf
    rcases Nat.lt_or_ge b s.heap.length with hlt | hge
    · simp only [addArr, newBlock] at hb
      rw [List.getElem?_append_left hlt] at hb
      obtain ⟨i, a, ⟨h1, h2⟩, h3⟩ := hl b k hb hm hf
      exact ⟨i, a, ⟨arr_addArr _ h1, h2⟩, h3⟩
    · have hlt := (List.getElem?_eq_some_iff.1 hb).1
      simp [addArr, newBlock] at hlt
      exact ⟨s.arrs.length, _, ⟨arr_new (newBlock s v (sizeOf shape)) _, rfl⟩, by simp; omega⟩
  | wrap b shape =>
    simp only [step] at hr
    split at hr
    · simp only [Option.some.injEq] at hr; subst hr
      intro b k hb hm hf
      obtain ⟨i, a, ⟨h1, h2⟩, h3⟩ := hl b k hb hm hf
      exact ⟨i, a, ⟨arr_addArr _ h1, h2⟩, h3⟩
    · simp at hr
  | copy i v =>
    obtain ⟨o, ho, hr⟩ := Option.bind_eq_some_iff.1 hr
    obtain ⟨vals, hv, hr⟩ := Option.bind_eq_some_iff.1 hr
    obtain ⟨s1, hs1, hr⟩ := Option.map_eq_some_iff.1 hr
    subst hr
    have hi : Inv (newBlock s v o.size) := h.appendBlock _
    obtain ⟨h1, h2, h3, h4⟩ := store_inv hi hs1
    intro b k hb hm hf
    rcases Nat.lt_or_ge b s.heap.length with hlt | hge
    · have hb' : (newBlock s v o.size).heap[b]? = some s.heap[b] := by simp only [newBlock]; rw [List.getElem?_append_left hlt, List.getElem?_eq_getElem hlt]
      obtain ⟨k', hk1, hk2, hk3, _⟩ := h4 b _ hb'
      have hbk : s1.heap[b]? = some k := hb
      rw [hbk] at hk1
      obtain rfl := Option.some.inj hk1
      obtain ⟨j, a, ⟨h1, h2'⟩, h3⟩ := hl b s.heap[b] (by simp [hlt]) (hk2 ▸ hm) (hk3 ▸ hf)
      refine ⟨j, a, ⟨arr_addArr _ ?_, h2'⟩, h3⟩
      unfold arr at h1 ⊢; rw [h2]; exact h1
    · have hlt := (List.getElem?_eq_some_iff.1 hb).1
      have hlt : b < s1.heap.length := hlt
      rw [h3] at hlt
      simp [newBlock] at hlt
      exact ⟨s1.arrs.length, _, ⟨arr_new s1 _, rfl⟩, by simp; omega⟩
  | move i =>
    obtain ⟨o, ho, hr⟩ := Option.map_eq_some_iff.1 hr
    subst hr
    intro b k hb hm hf
    obtain ⟨j, a, ⟨h1, h2⟩, h3⟩ := hl b k hb hm hf
    by_cases hji : j = i
    · subst hji
      rw [ho] at h1
      obtain rfl := Option.some.inj h1
      exact ⟨_, _, ⟨arr_new (setArr s j { o with own := false }) o, h2⟩, h3⟩
    · exact ⟨j, a, ⟨arr_addArr _ ((arr_ne _ hji).trans h1), h2⟩, h3⟩
  | assign i j =>
    obtain ⟨a, ha, hr⟩ := Option.bind_eq_some_iff.1 hr
    obtain ⟨o, ho, hr⟩ := Option.bind_eq_some_iff.1 hr
    split at hr
    · simp only [Option.some.injEq] at hr; subst hr; exact hl
    · obtain ⟨vals, hv, hr⟩ := Option.bind_eq_some_iff.1 hr
      obtain ⟨s1, hs1, hr⟩ := Option.map_eq_some_iff.1 hr
      subst hr
      obtain ⟨h1, h2, h3, h4⟩ := store_inv h hs1
      intro b k hb hm hf
      have hbk : s1.heap[b]? = some k := hb
      have hlt : b < s.heap.length := h3 ▸ (List.getElem?_eq_some_iff.1 hbk).1
      obtain ⟨k', hk1, hk2, hk3, _⟩ := h4 b s.heap[b] (by simp [hlt])
      rw [hbk] at hk1
      obtain rfl := Option.some.inj hk1
      obtain ⟨l, a', ⟨h1', h2'⟩, h3'⟩ := hl b s.heap[b] (by simp [hlt]) (hk2 ▸ hm) (hk3 ▸ hf)
      have hs : arr s1 l = some a' := by unfold arr at h1' ⊢; rw [h2]; exact h1'
      by_cases hli : l = i
      · subst hli
        rw [ha] at h1'
        obtain rfl := Option.some.inj h1'
        exact ⟨l, _, ⟨arr_self (s := s1) _ (h2 ▸ arr_lt ha), h2'⟩, h3'⟩
      · exact ⟨l, a', ⟨(arr_ne _ hli).trans hs, h2'⟩, h3'⟩
  | moveAssign i j =>
    obtain ⟨a, ha, hr⟩ := Option.bind_eq_some_iff.1 hr
    obtain ⟨s1, hs1, hr⟩ := Option.bind_eq_some_iff.1 hr
    simp only at hr
    obtain ⟨o, ho, hr⟩ := Option.map_eq_some_iff.1 hr
    subst hr
    obtain ⟨s1', hs1', h2, _⟩ := h.destroy ha
    rw [hs1] at hs1'
    obtain rfl := Option.some.inj hs1'
    have hil : i < s1.arrs.length := h2 ▸ arr_lt ha
    intro b k hb hm hf
    have hb' : s1.heap[b]? = some k := by
      simp only at hb
      split at hb <;> exact hb
    obtain ⟨l, a', hli, hl1, hl2, hl3, hl4⟩ := hl.destroy h ha hs1 (some { a with own := false, data := none }) b k hb' hm hf
    by_cases hij : j = i
    · subst hij
      have ho' : o = { a with own := false, data := none } := by
        have := arr_self (s := s1) (some { a with own := false, data := none }) hil
        exact (Option.some.inj (this.symm.trans ho)).symm
      subst ho'
      have e : setArr (setArr s1 j { a with own := false, data := none }) j { a with own := false, data := none } = setArr s1 j { a with own := false, data := none } := by
        simp [setArr]
      refine ⟨l, a', ⟨?_, hl3⟩, hl4⟩
      simp only [e]
      rw [ho]
      simp only
      rw [e]
      exact hl1
    · have hoj : arr (setArr (setArr s1 i { a with own := false, data := none }) i o) j = some o := (arr_ne _ hij).trans ho
      simp only [hoj]
      by_cases hlj : l = j
      · subst hlj
        have hoa : o = a' := Option.some.inj (ho.symm.trans hl1)
        subst hoa
        refine ⟨i, o, ⟨(arr_ne _ (fun h => hij h.symm)).trans (arr_self _ (by simp [setArr, hil])), hl3⟩, hl4⟩
      · exact ⟨l, a', ⟨(arr_ne _ hlj).trans ((arr_ne _ hli).trans hl1), hl3⟩, hl4⟩
  | destroy i =>
    obtain ⟨a, ha, hr⟩ := Option.bind_eq_some_iff.1 hr
    obtain ⟨s1, hs1, hr⟩ := Option.map_eq_some_iff.1 hr
    subst hr
    intro b k hb hm hf
    obtain ⟨l, a', _, hl1, _, hl3, hl4⟩ := hl.destroy h ha hs1 none b k hb hm hf
    exact ⟨l, a', ⟨hl1, hl3⟩, hl4⟩
  | setData i b shape =>
    simp only [step] at hr
    split at hr
    · obtain ⟨a, ha, hr⟩ := Option.bind_eq_some_iff.1 hr
      obtain ⟨s1, hs1, hr⟩ := Option.map_eq_some_iff.1 hr
      subst hr
      intro b k hb hm hf
      obtain ⟨l, a', _, hl1, _, hl3, hl4⟩ := hl.destroy h ha hs1 _ b k hb hm hf
      exact ⟨l, a', ⟨hl1, hl3⟩, hl4⟩
    · simp at hr
  | reallocate i shape v =>
    obtain ⟨a, ha, hr⟩ := Option.bind_eq_some_iff.1 hr
    obtain ⟨s1, hs1, hr⟩ := Option.map_eq_some_iff.1 hr
    subst hr
    obtain ⟨s1', hs1', h2, h3, _⟩ := h.destroy ha
    rw [hs1] at hs1'
    obtain rfl := Option.some.inj hs1'
    intro b k hb hm hf
    rcases Nat.lt_or_ge b s1.heap.length with hlt | hge
    · simp only [setArr, newBlock] at hb
      rw [List.getElem?_append_left hlt] at hb
      obtain ⟨l, a', _, hl1, _, hl3, hl4⟩ := hl.destroy h ha hs1 (some ⟨true, some s.heap.length, sizeOf shape, stridesOf shape, shape⟩) b k hb hm hf
      exact ⟨l, a', ⟨hl1, hl3⟩, hl4⟩
    · have hlt := (List.getElem?_eq_some_iff.1 hb).1
      simp [setArr, newBlock] at hlt
      exact ⟨i, _, ⟨arr_self (s := newBlock s1 v (sizeOf shape)) _ (h2 ▸ arr_lt ha), rfl⟩, by simp; omega⟩
  | transfer i => exact absurd rfl (hn i)
  | setShape i shape =>
    obtain ⟨a, ha, hr⟩ := Option.map_eq_some_iff.1 hr
    subst hr
    intro b k hb hm hf
    obtain ⟨l, a', ⟨h1, h2⟩, h3⟩ := hl b k hb hm hf
    by_cases hli : l = i
    · subst hli
      rw [ha] at h1
      obtain rfl := Option.some.inj h1
      exact ⟨l, _, ⟨arr_self _ (arr_lt ha), h2⟩, h3⟩
    · exact ⟨l, a', ⟨(arr_ne _ hli).trans h1, h2⟩, h3⟩
  | write i ids v =>
    obtain ⟨a, ha, hr⟩ := Option.bind_eq_some_iff.1 hr
    obtain ⟨c, hc, hr⟩ := Option.bind_eq_some_iff.1 hr
    obtain ⟨kc, hkc, hr⟩ := Option.bind_eq_some_iff.1 hr
    split at hr
    · simp only [Option.some.injEq] at hr; subst hr
      intro b k hb hm hf
      by_cases hbc : b = c
      · subst hbc
        simp [(List.getElem?_eq_some_iff.1 hkc).1] at hb
        subst hb
        exact hl b kc hkc hm hf
      · simp only at hb
        rw [List.getElem?_set_ne (fun h => hbc h.symm)] at hb
        exact hl b k hb hm hf
    · simp at hr

theorem run_leak : ∀ {ops : List (Op α)} {s s' : State α}, Inv s → NoLeak s → Spec.AllAllowed s ops → (∀ op ∈ ops, ∀ i, op ≠ .transfer i) → run s ops = some s' → NoLeak s'
  | [], s, s', _, h, _, _, hr => by
    simp only [run, List.foldlM_nil, Option.pure_def, Option.some.injEq] at hr
    subst hr; exact h
  | op :: ops, s, s', h, hl, hok, hn, hr => by
    simp only [run, List.foldlM_cons] at hr
    obtain ⟨s1, h1, hr⟩ := Option.bind_eq_some_iff.1 hr
    obtain ⟨r, h2, rfl⟩ := Option.map_eq_some_iff.1 h1
    exact run_leak (step_inv h hok.1 h2) (step_leak h hl (hn op List.mem_cons_self) h2) (hok.2 r h2) (fun op' h' => hn op' (List.mem_cons_of_mem _ h')) hr

/-! ### C129 -/

/-- C129: whatever happened before, destroying an array, reallocating it, making it refer to other memory or moving another array into it never frees memory twice, nor memory that is not
from `new[]`. -/
theorem frees_once (ops : List (Op α)) (s : State α) (hok : Spec.AllAllowed {} ops) (hr : run {} ops = some s) (i : Nat) (a : Arr) (hi : arr s i = some a) :
    (step s (.destroy i)).isSome ∧ (∀ shape v, (step s (.reallocate i shape v)).isSome) ∧ (∀ b < s.heap.length, ∀ shape, (step s (.setData i b shape)).isSome) ∧
    ∀ j a', arr s j = some a' → (step s (.moveAssign i j)).isSome := by
  have h := run_inv inv_empty hok hr
  obtain ⟨s1, hs1, h2, _⟩ := h.destroy hi
  refine ⟨by simp [step, hi, hs1], fun shape v => by simp [step, hi, hs1], fun b hb shape => by simp [step, hi, hs1, hb], fun j a' hj => ?_⟩
  simp only [step, hi, Option.bind_some, hs1, Option.isSome_map]
  by_cases hij : j = i
  · subst hij
    rw [show arr (setArr s1 j { a with own := false, data := none }) j = some { a with own := false, data := none } from arr_self _ (h2 ▸ arr_lt hi)]
    rfl
  · rw [show arr (setArr s1 i { a with own := false, data := none }) j = some a' from (arr_ne _ hij).trans (by unfold arr at hj ⊢; rw [h2]; exact hj)]
    rfl

/-- C129: memory is freed: if ownership was never given away, then after the destruction of all arrays nothing allocated by them is left. -/
theorem frees_all (ops : List (Op α)) (s : State α) (hok : Spec.AllAllowed {} ops) (hn : ∀ op ∈ ops, ∀ i, op ≠ .transfer i) (hr : run {} ops = some s) (hd : ∀ i, arr s i = none) :
    ∀ k ∈ s.heap, k.made = true → k.freed = true := by
  intro k hk hm
  by_contra hf
  obtain ⟨b, hb⟩ := List.mem_iff_getElem?.1 hk
  obtain ⟨i, a, ⟨h1, _⟩, _⟩ := run_leak inv_empty (by intro b k hb; simp at hb) hok hn hr b k hb hm (by simpa using hf)
  rw [hd i] at h1
  simp at h1

/-- C129: elements of an array that is responsible for its memory can always be written; the written element has the value, all other elements of this array and of the other such arrays
stay as they were. -/
theorem write_read_partial (ops : List (Op α)) (s : State α) (hok : Spec.AllAllowed {} ops) (hr : run {} ops = some s) (i : Nat) (a : Arr) (hi : Spec.Owner s i a) (ids : List Nat)
    (hids : Spec.IsIndex a.shape ids) (hsh : a.shape ≠ []) (v : α) :
    ∃ s', step s (.write i ids v) = some ⟨s', false⟩ ∧ Spec.read s' i ids = some v ∧
      (∀ ids', Spec.IsIndex a.shape ids' → ids' ≠ ids → Spec.read s' i ids' = Spec.read s i ids') ∧ ∀ j a', Spec.Owner s j a' → j ≠ i → ∀ ids', Spec.read s' j ids' = Spec.read s j ids' := by
  have h := run_inv inv_empty hok hr
  obtain ⟨b, k, hb, hk, hm, hf⟩ := h.own i a hi.1 hi.2
  obtain ⟨hst, hsz, hfit⟩ := h.fit i a hi.1
  obtain ⟨k', hk', hle⟩ := hfit b hb
  rw [hk] at hk'
  obtain rfl := Option.some.inj hk'
  have hlt := (index_bijective a.shape hsh).1 ids hids
  have hl := List.Forall₂.length_eq hids
  have hbl := (List.getElem?_eq_some_iff.1 hk).1
  rw [offset_rowMajor _ _ hl, ← hsz] at hlt
  refine ⟨{ s with heap := s.heap.set b { k with vals := k.vals.set (Spec.rowMajor a.shape ids) v } },
    by simp [step, hi.1, hb, hk, hf, hst, offset_rowMajor _ _ hl, show Spec.rowMajor a.shape ids < k.vals.length by omega], ?_, ?_, ?_⟩
  · have : arr { s with heap := s.heap.set b { k with vals := k.vals.set (Spec.rowMajor a.shape ids) v } } i = some a := hi.1
    unfold Spec.read
    rw [this]
    simp [hb, hbl, hf, show Spec.rowMajor a.shape ids < k.vals.length by omega]
  · intro ids' hids' hne
    have : arr { s with heap := s.heap.set b { k with vals := k.vals.set (Spec.rowMajor a.shape ids) v } } i = some a := hi.1
    have hne' : Spec.rowMajor a.shape ids ≠ Spec.rowMajor a.shape ids' := fun he => hne (rowMajor_inj hids' hids he.symm)
    unfold Spec.read
    rw [this]
    simp [hi.1, hb, hbl, (List.getElem?_eq_some_iff.1 hk).2, hf, List.getElem?_set_ne hne']
  · intro j a' hj hji ids'
    have : arr { s with heap := s.heap.set b { k with vals := k.vals.set (Spec.rowMajor a.shape ids) v } } j = some a' := hj.1
    obtain ⟨b', k', hb', hk', _⟩ := h.own j a' hj.1 hj.2
    have hbb : b ≠ b' := by
      rintro rfl
      exact hji (h.uniq j i a' a hj.1 hi.1 hj.2 hi.2 (hb'.trans hb.symm))
    unfold Spec.read
    rw [this]
    simp [hj.1, hb', List.getElem?_set_ne hbb]

/-- A concrete history: arrays of two and three dimensions, copied, moved, assigned, reallocated and destroyed; one of them views memory of somebody else. -/
example : ∃ s : State Nat, run {} [.foreign [1, 2, 3, 4, 5, 6], .wrap 0 [2, 3], .copy 0 0, .write 1 [1, 2] 9, .move 1, .alloc [2, 3] 0, .assign 3 2, .moveAssign 0 3, .setData 1 0 [3, 2],
      .reallocate 2 [2, 2, 2] 7] = some s ∧
    Spec.AllAllowed {} [.foreign [1, 2, 3, 4, 5, 6], .wrap 0 [2, 3], .copy 0 0, .write 1 [1, 2] 9, .move 1, .alloc [2, 3] 0, .assign 3 2, .moveAssign 0 3, .setData 1 0 [3, 2],
      .reallocate 2 [2, 2, 2] 7] ∧
    Spec.read s 0 [1, 2] = some 9 ∧ Spec.read s 1 [2, 1] = some 6 ∧ Spec.read s 2 [1, 0, 1] = some 7 ∧
    Spec.Owner s 2 ⟨true, some 3, 8, [4, 2], [2, 2, 2]⟩ ∧ Spec.IsIndex [2, 2, 2] [1, 0, 1] ∧ (s.heap.map Block.freed) = [false, true, false, false] := by
  refine ⟨_, rfl, ?_, rfl, rfl, rfl, ⟨rfl, rfl⟩, .cons (by omega) (.cons (by omega) (.cons (by omega) .nil)), rfl⟩
  refine ⟨trivial, ?_⟩; rintro r hr; cases hr
  refine ⟨?_, ?_⟩
  · intro k hk; cases hk; decide
  rintro r hr; cases hr
  refine ⟨trivial, ?_⟩; rintro r hr; cases hr
  refine ⟨trivial, ?_⟩; rintro r hr; cases hr
  refine ⟨trivial, ?_⟩; rintro r hr; cases hr
  refine ⟨trivial, ?_⟩; rintro r hr; cases hr
  refine ⟨trivial, ?_⟩; rintro r hr; cases hr
  refine ⟨trivial, ?_⟩; rintro r hr; cases hr
  refine ⟨?_, ?_⟩
  · intro k hk; cases hk; decide
  rintro r hr; cases hr
  refine ⟨trivial, ?_⟩; rintro r hr; cases hr
  trivial

/-- All arrays of a history are destroyed: nothing is left. -/
example : ∃ s : State Nat, run {} [.alloc [2, 3] 0, .copy 0 0, .move 1, .reallocate 0 [4] 1, .destroy 0, .destroy 1, .destroy 2] = some s ∧ (∀ i, arr s i = none) ∧
    (s.heap.map fun k => (k.made, k.freed)) = [(true, true), (true, true), (true, true)] := by
  refine ⟨_, rfl, fun i => ?_, rfl⟩
  match i with
  | 0 => rfl
  | 1 => rfl
  | 2 => rfl
  | n + 3 => rfl

/-- C129: an array from which another was moved keeps the pointer. Once the other array is gone, using it again, also assigning to it, accesses freed memory. For all extents and values. -/
theorem moved_from_violates (n : Nat) (v w : α) : run {} [.alloc [n + 1] v, .move 0, .destroy 1, .write 0 [0] w] = none ∧
    run {} [.alloc [n + 1] v, .move 0, .destroy 1, .alloc [n + 1] w, .assign 0 2] = none := by
  constructor
  · simp [run, step, arr, addArr, newBlock, setArr, destroyData, free, sizeOf]
  · simp [run, step, arr, addArr, newBlock, setArr, destroyData, free, sizeOf, load, store]

/-- C129: moving an array into itself frees its memory: the elements are gone, although the size is kept. -/
theorem self_move_violates (n : Nat) (v : α) : ∃ s, run {} [.alloc [n + 1] v, .moveAssign 0 0] = some s ∧ arr s 0 = some ⟨false, none, n + 1, [], [n + 1]⟩ ∧
    s.heap.map Block.freed = [true] ∧ ∀ w, step s (.write 0 [0] w) = none := by
  refine ⟨_, by simp [run, step, arr, addArr, newBlock, setArr, destroyData, free, sizeOf, stridesOf, stridesLoop]; rfl, rfl, rfl, fun w => rfl⟩

end Splinepy.ArrayClass
