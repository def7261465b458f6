import Verif.Model.ExtractPlanes
import Verif.Props.ExtractSpline
import Mathlib.Data.List.InsertIdx

/-!
C147: `extract.spline` with a dictionary of planes restricts the spline in all the named directions at once, in any order of the dictionary.
-/
set_option linter.unusedSectionVars false
namespace Splinepy.ExtractPlanes
open Splinepy.Spec
open Splinepy.Index (Spline)
open Splinepy.ExtractSpline (Plane extractSpline)

variable {K : Type} [Field K] [LinearOrder K] [IsStrictOrderedRing K]

/-! ### Specification -/

/-- the dictionary fixes the parameter of the axis `i` -/
def Spec.fixes (items : List (ℕ × Plane K)) (i : ℕ) : Bool :=
  items.any fun x => match x.2 with
    | .at _ => x.1 == i
    | .between _ _ => false

/-- the entries of the axes that remain: those whose parameter is not fixed -/
def Spec.remaining {α : Type} (items : List (ℕ × Plane K)) (u : List α) : List α :=
  (u.zipIdx.filter fun x => !Spec.fixes items x.2).map Prod.fst

/-- the plane is met by the parameter `x` of a direction with the degree `p` and the knots `kv` (the end of an interval, if the spline does not jump there) -/
def Spec.On (p : ℕ) (kv : List K) (plane : Plane K) (x : K) : Prop :=
  match plane with
  | .at a => x = a
  | .between a b => a ≤ x ∧ (x < b ∨ (x = b ∧ ExtractSpline.Spec.NoJump p kv b))

/-- the plane fits to a direction: not closer than the tolerance to other knots, and not beyond the end of a clamped direction for sections -/
def Spec.Fits (tol : K) (p : ℕ) (kv : List K) (plane : Plane K) : Prop :=
  match plane with
  | .at a => ExtractSpline.Spec.ClampedEnd p kv ∧ (∃ v ∈ kv, a ≤ v) ∧ ∀ v ∈ kv, v = a ∨ tol ≤ |v - a|
  | .between a b => a + tol ≤ b ∧ ∀ v ∈ kv, (v = a ∨ tol ≤ |v - a|) ∧ (v = b ∨ tol ≤ |v - b|)

/-- What a direction with the knots `kv` has become: unchanged if the dictionary does not name it, with the ends of the interval as bounds if it names one. -/
def Spec.Restricted (items : List (ℕ × Plane K)) (degrees : List ℕ) (kvs kvs' : List (List K)) : Prop :=
  kvs'.length = kvs.length ∧ (∀ i, i ∉ items.map Prod.fst → kvs'[i]? = kvs[i]?) ∧
    ∀ i a b, (i, Plane.between a b) ∈ items → ∃ p kv', degrees[i]? = some p ∧ kvs'[i]? = some kv' ∧ Direction.lower ⟨p, some kv'⟩ = a ∧
      Direction.upper ⟨p, some kv'⟩ = b

/-! ### Auxiliary statements -/

theorem filter_zipIdx_all {α : Type} (f : ℕ → Bool) (u : List α) (n : ℕ) (h : ∀ i, n ≤ i → f i = true) :
    ((u.zipIdx n).filter fun x => f x.2).map Prod.fst = u := by
  induction u generalizing n with
  | nil => rfl
  | cons a u ih =>
    rw [List.zipIdx_cons, List.filter_cons, if_pos (show f n = true from h n le_rfl), List.map_cons, ih (n + 1) (fun i hi => h i (by omega))]

theorem filter_zipIdx_congr {α : Type} (f g : ℕ → Bool) (u : List α) (n : ℕ) (h : ∀ i, i < n + u.length → f i = g i) :
    (u.zipIdx n).filter (fun x => f x.2) = (u.zipIdx n).filter fun x => g x.2 := by
  refine List.filter_congr fun x hx => h _ ?_
  have := List.snd_lt_add_of_mem_zipIdx hx
  omega

theorem fixes_false {items : List (ℕ × Plane K)} {i : ℕ} (h : ∀ x ∈ items, x.1 < i) : Spec.fixes items i = false := by
  unfold Spec.fixes
  rw [List.any_eq_false]
  intro x hx
  have := h x hx
  rcases x with ⟨j, a | ⟨a, b⟩⟩ <;> simp at this ⊢
  omega

theorem remaining_at {α : Type} {items : List (ℕ × Plane K)} {n : ℕ} (a : K) (h : ∀ x ∈ items, x.1 < n) (u : List α) (hn : n < u.length) :
    Spec.remaining ((n, .at a) :: items) u = Spec.remaining items (u.eraseIdx n) := by
  obtain ⟨u1, x, u2, rfl, rfl⟩ : ∃ u1 x u2, u = u1 ++ x :: u2 ∧ n = u1.length :=
    ⟨u.take n, u[n], u.drop (n + 1), by simp, by simp; omega⟩
  have e1 : (u1 ++ x :: u2).eraseIdx u1.length = u1 ++ u2 := by
    rw [List.eraseIdx_append_of_length_le (le_refl _)]
    simp
  rw [e1]
  unfold Spec.remaining
  rw [List.zipIdx_append, List.zipIdx_append, List.filter_append, List.filter_append, List.map_append, List.map_append]
  congr 1
  · congr 1
    refine filter_zipIdx_congr (fun i => !Spec.fixes ((u1.length, .at a) :: items) i) (fun i => !Spec.fixes items i) u1 0 ?_
    intro i hi
    simp only [Spec.fixes, List.any_cons]
    have : (u1.length == i) = false := by simp; omega
    rw [this, Bool.false_or]
  · rw [List.zipIdx_cons, List.filter_cons_of_neg (by simp [Spec.fixes])]
    rw [filter_zipIdx_all (fun i => !Spec.fixes ((u1.length, .at a) :: items) i) u2 (0 + u1.length + 1)]
    · exact (filter_zipIdx_all (fun i => !Spec.fixes items i) u2 (0 + u1.length) (fun i hi => by
        rw [fixes_false (fun x hx => lt_of_lt_of_le (h x hx) (by omega))]; rfl)).symm
    · intro i hi
      have e : Spec.fixes ((u1.length, .at a) :: items) i = false := fixes_false (fun x hx => by
        rcases List.mem_cons.mp hx with rfl | hx
        · show u1.length < i
          omega
        · have := h x hx
          omega)
      rw [e]; rfl

theorem remaining_between {α : Type} {items : List (ℕ × Plane K)} (n : ℕ) (a b : K) (u : List α) :
    Spec.remaining ((n, .between a b) :: items) u = Spec.remaining items u := by
  simp [Spec.remaining, Spec.fixes]

theorem remaining_perm {α : Type} {items items' : List (ℕ × Plane K)} (h : items.Perm items') (u : List α) :
    Spec.remaining items u = Spec.remaining items' u := by
  simp only [Spec.remaining, Spec.fixes, h.any_eq]

theorem remaining_nil {α : Type} (u : List α) : Spec.remaining ([] : List (ℕ × Plane K)) u = u := by
  unfold Spec.remaining
  exact filter_zipIdx_all (fun i => !Spec.fixes ([] : List (ℕ × Plane K)) i) u 0 (fun _ _ => rfl)

/-- the loop, for axes in descending order -/
theorem loop_spec {insert : Spline K (List K) → ℕ → List K → Option (Spline K (List K))} {F : ℕ → Spline K (List K) → Prop} {tol : K} (htol : 0 < tol)
    (items : List (ℕ × Plane K)) (hsort : items.Pairwise fun x y => y.1 < x.1)
    (hins : ∀ axis plane q, (axis, plane) ∈ items → F axis q →
      ∃ q', insert q axis plane.locations = some q' ∧ F axis q' ∧ ExtractSpline.Spec.Inserted q q' axis plane.locations)
    (hcut : ∀ axis plane q r, (axis, plane) ∈ items → F axis q → extractSpline insert tol q axis plane = some r → ∀ axis' < axis, F axis' r)
    (s : Spline K (List K)) (hs : ValidSpline s) (kvs : List (List K)) (hk : s.knotVectors = some kvs) (h0 : ∀ x ∈ items, F x.1 s)
    (hfit : ∀ axis plane, (axis, plane) ∈ items → ∃ p kv, s.degrees[axis]? = some p ∧ kvs[axis]? = some kv ∧ Spec.Fits tol p kv plane) :
    ∃ r kvs', extractLoop insert tol items s = some r ∧ ValidSpline r ∧ r.degrees = Spec.remaining items s.degrees ∧
      r.knotVectors = some (Spec.remaining items kvs') ∧ Spec.Restricted items s.degrees kvs kvs' ∧ r.weights.isSome = s.weights.isSome ∧
      ∀ u, InDomain s u → (∀ axis plane p kv, (axis, plane) ∈ items → s.degrees[axis]? = some p → kvs[axis]? = some kv → Spec.On p kv plane (u.getD axis 0)) →
        InDomain r (Spec.remaining items u) ∧ ∀ k, point r (Spec.remaining items u) k = point s u k := by
  induction items generalizing s kvs with
  | nil =>
    refine ⟨s, kvs, rfl, hs, (remaining_nil _).symm, by rw [hk, remaining_nil], ⟨rfl, fun _ _ => rfl, by simp⟩, rfl, fun u hu _ => ?_⟩
    rw [remaining_nil]
    exact ⟨hu, fun _ => rfl⟩
  | cons x items ih =>
    obtain ⟨n, plane⟩ := x
    rw [List.pairwise_cons] at hsort
    obtain ⟨p, kv, hp, hkv, hf⟩ := hfit n plane List.mem_cons_self
    have hlen := hs.knots kvs hk
    have hn : n < s.degrees.length := (List.getElem?_eq_some_iff.mp hp).1
    cases plane with
    | «at» a =>
      obtain ⟨hcl, ha, hsep⟩ := hf
      obtain ⟨r, e1, e2, e3, e4, e5, e6⟩ := ExtractSpline.extract_section hs hk hp hkv (h0 _ List.mem_cons_self)
        (fun q hq => hins n (.at a) q List.mem_cons_self hq) hcl ha htol hsep
      have hdeg : ∀ i < n, r.degrees[i]? = s.degrees[i]? := fun i hi => by rw [e3, List.getElem?_eraseIdx_of_lt hi]
      have hkn : ∀ i < n, (kvs.eraseIdx n)[i]? = kvs[i]? := fun i hi => List.getElem?_eraseIdx_of_lt hi
      obtain ⟨r', kvs', g1, g2, g3, g4, ⟨g5, g5', g5''⟩, g6, g7⟩ := ih hsort.2 (fun axis plane q hm hq => hins axis plane q (List.mem_cons_of_mem _ hm) hq)
        (fun axis plane q r hm hq => hcut axis plane q r (List.mem_cons_of_mem _ hm) hq) r e2 (kvs.eraseIdx n) e4
        (fun x hx => hcut n (.at a) s r List.mem_cons_self (h0 _ List.mem_cons_self) e1 x.1 (hsort.1 x hx))
        (fun axis plane hm => by
          have hi := hsort.1 _ hm
          rw [hdeg _ hi, hkn _ hi]
          exact hfit axis plane (List.mem_cons_of_mem _ hm))
      have hl' : n ≤ kvs'.length := by rw [g5, List.length_eraseIdx_of_lt (by omega)]; omega
      refine ⟨r', kvs'.insertIdx n kv, ?_, g2, ?_, ?_, ⟨?_, ?_, ?_⟩, by rw [g6, e5], ?_⟩
      · unfold extractLoop
        rw [e1]
        exact g1
      · rw [g3, e3, remaining_at a (fun x hx => hsort.1 x hx) _ hn]
      · rw [g4, remaining_at a (fun x hx => hsort.1 x hx) _ (by rw [List.length_insertIdx_of_le_length hl']; omega), List.eraseIdx_insertIdx_self]
      · rw [List.length_insertIdx_of_le_length hl', g5, List.length_eraseIdx_of_lt (by omega)]
        omega
      · intro i hi
        simp only [List.map_cons, List.mem_cons, not_or] at hi
        obtain ⟨hi, hi'⟩ := hi
        rcases Nat.lt_or_gt_of_ne hi with h | h
        · rw [List.getElem?_insertIdx_of_lt h, g5' i hi', hkn i h]
        · rw [List.getElem?_insertIdx_of_gt h, g5' (i - 1) ?_, List.getElem?_eraseIdx_of_ge (by omega)]
          · congr 1
            omega
          · intro hm
            obtain ⟨x, hx, hx'⟩ := List.mem_map.mp hm
            have := hsort.1 x hx
            simp only at this
            omega
      · intro i b c hm
        have hm : (i, Plane.between b c) ∈ items := by simpa using hm
        have hi : i < n := hsort.1 _ hm
        rw [List.getElem?_insertIdx_of_lt hi, ← hdeg i hi]
        exact g5'' i b c hm
      · intro u hu hon
        have hx : u.getD n 0 = a := hon n (.at a) p kv List.mem_cons_self hp hkv
        obtain ⟨m1, m2⟩ := e6 u hu hx
        have hul : n < u.length := by
          have := hu.length_eq
          simp only [directions, hk, List.length_zipWith] at this
          omega
        obtain ⟨o1, o2⟩ := g7 _ m1 (fun axis plane p kv hm h1 h2 => by
          have hi : axis < n := hsort.1 _ hm
          rw [hdeg _ hi] at h1
          rw [hkn _ hi] at h2
          have h3 := hon axis plane p kv (List.mem_cons_of_mem _ hm) h1 h2
          have e : (u.eraseIdx n).getD axis 0 = u.getD axis 0 := by
            rw [List.getD_eq_getElem?_getD, List.getD_eq_getElem?_getD, List.getElem?_eraseIdx_of_lt hi]
          rw [e]
          exact h3)
        rw [remaining_at a (fun x hx => hsort.1 x hx) u hul]
        exact ⟨o1, fun k => by rw [o2, m2]⟩
    | between a b =>
      obtain ⟨hab, hsep⟩ := hf
      obtain ⟨r, kv', e1, e2, e3, e4, e5, e6, e7, e8⟩ := ExtractSpline.extract_interval hs hk hp hkv (h0 _ List.mem_cons_self)
        (fun q hq => hins n (.between a b) q List.mem_cons_self hq) htol hsep hab
      have hkn : ∀ i < n, (kvs.set n kv')[i]? = kvs[i]? := fun i hi => List.getElem?_set_ne (by omega)
      obtain ⟨r', kvs', g1, g2, g3, g4, ⟨g5, g5', g5''⟩, g6, g7⟩ := ih hsort.2 (fun axis plane q hm hq => hins axis plane q (List.mem_cons_of_mem _ hm) hq)
        (fun axis plane q r hm hq => hcut axis plane q r (List.mem_cons_of_mem _ hm) hq) r e2 (kvs.set n kv') e4
        (fun x hx => hcut n (.between a b) s r List.mem_cons_self (h0 _ List.mem_cons_self) e1 x.1 (hsort.1 x hx))
        (fun axis plane hm => by
          have hi := hsort.1 _ hm
          rw [e3, hkn _ hi]
          exact hfit axis plane (List.mem_cons_of_mem _ hm))
      have hnot : n ∉ items.map Prod.fst := by
        intro hm
        obtain ⟨x, hx, hx'⟩ := List.mem_map.mp hm
        have := hsort.1 x hx
        simp only at this
        omega
      refine ⟨r', kvs', ?_, g2, ?_, ?_, ⟨?_, ?_, ?_⟩, by rw [g6, e7], ?_⟩
      · unfold extractLoop
        rw [e1]
        exact g1
      · rw [g3, e3, remaining_between]
      · rw [g4, remaining_between]
      · rw [g5, List.length_set]
      · intro i hi
        simp only [List.map_cons, List.mem_cons, not_or] at hi
        rw [g5' i hi.2, List.getElem?_set_ne (fun h => hi.1 h.symm)]
      · intro i c d hm
        rcases List.mem_cons.mp hm with hm | hm
        · simp only [Prod.mk.injEq, Plane.between.injEq] at hm
          obtain ⟨rfl, rfl, rfl⟩ := hm
          exact ⟨p, kv', hp, by rw [g5' i hnot, List.getElem?_set_self (by omega)], e5, e6⟩
        · rw [← e3]
          exact g5'' i c d hm
      · intro u hu hon
        obtain ⟨hx1, hx2⟩ := hon n (.between a b) p kv List.mem_cons_self hp hkv
        obtain ⟨m1, m2⟩ := e8 u hu hx1 hx2
        obtain ⟨o1, o2⟩ := g7 _ m1 (fun axis plane p kv hm h1 h2 => by
          have hi : axis < n := hsort.1 _ hm
          rw [e3] at h1
          rw [hkn _ hi] at h2
          exact hon axis plane p kv (List.mem_cons_of_mem _ hm) h1 h2)
        rw [remaining_between]
        exact ⟨o1, fun k => by rw [o2, m2]⟩

theorem sortedItems_perm (items : List (ℕ × Plane K)) : (sortedItems items).Perm items :=
  (List.reverse_perm _).trans (List.mergeSort_perm _ _)

theorem sortedItems_pairwise (items : List (ℕ × Plane K)) (h : (items.map Prod.fst).Nodup) : (sortedItems items).Pairwise fun x y => y.1 < x.1 := by
  have h1 : (items.mergeSort fun x y => decide (x.1 ≤ y.1)).Pairwise fun x y => x.1 ≤ y.1 := by
    have := List.pairwise_mergeSort (le := fun x y : ℕ × Plane K => decide (x.1 ≤ y.1)) (by intro a b c; simp; omega) (by intro a b; simp; omega) items
    exact this.imp (by simp)
  have h2 : ((items.mergeSort fun x y => decide (x.1 ≤ y.1)).map Prod.fst).Nodup := ((List.mergeSort_perm items _).map _).nodup_iff.mpr h
  unfold sortedItems
  rw [List.pairwise_reverse]
  rw [List.Nodup, List.pairwise_map] at h2
  exact (h1.and h2).imp (fun ⟨a, b⟩ => lt_of_le_of_ne a b)

/-! ### C147 -/

/-- C147: `extract.spline({axis: plane, …})` of a valid spline with knot vectors, for different axes of the spline in any order: the call succeeds, the
result is valid, has the directions whose parameter is not fixed, with the given bounds in those restricted to an interval and unchanged knots in those not
named, and has, at the remaining parameters, the points of the spline at all parameters that meet all the planes. (If all axes are fixed nothing remains:
the constructor gets no directions.) The contract of `insert_knots` is only required for the splines that occur: `F axis q` says that `q` may be treated along the axis. -/
theorem extract_planes_partial {insert : Spline K (List K) → ℕ → List K → Option (Spline K (List K))} {F : ℕ → Spline K (List K) → Prop} {tol : K} (htol : 0 < tol)
    (items : List (ℕ × Plane K)) (hkeys : (items.map Prod.fst).Nodup)
    (hins : ∀ axis plane q, (axis, plane) ∈ items → F axis q →
      ∃ q', insert q axis plane.locations = some q' ∧ F axis q' ∧ ExtractSpline.Spec.Inserted q q' axis plane.locations)
    (hcut : ∀ axis plane q r, (axis, plane) ∈ items → F axis q → extractSpline insert tol q axis plane = some r → ∀ axis' < axis, F axis' r)
    (s : Spline K (List K)) (hs : ValidSpline s) (kvs : List (List K)) (hk : s.knotVectors = some kvs) (h0 : ∀ x ∈ items, F x.1 s)
    (hfit : ∀ axis plane, (axis, plane) ∈ items → ∃ p kv, s.degrees[axis]? = some p ∧ kvs[axis]? = some kv ∧ Spec.Fits tol p kv plane) :
    ∃ r kvs', extractCall insert tol s (.planes items) none = some r ∧ ValidSpline r ∧ r.degrees = Spec.remaining items s.degrees ∧
      r.knotVectors = some (Spec.remaining items kvs') ∧ Spec.Restricted items s.degrees kvs kvs' ∧ r.weights.isSome = s.weights.isSome ∧
      ∀ u, InDomain s u → (∀ axis plane p kv, (axis, plane) ∈ items → s.degrees[axis]? = some p → kvs[axis]? = some kv → Spec.On p kv plane (u.getD axis 0)) →
        InDomain r (Spec.remaining items u) ∧ ∀ k, point r (Spec.remaining items u) k = point s u k := by
  have hp := sortedItems_perm items
  have hm : ∀ x, x ∈ sortedItems items ↔ x ∈ items := fun x => hp.mem_iff
  obtain ⟨r, kvs', g1, g2, g3, g4, ⟨g5, g5', g5''⟩, g6, g7⟩ := loop_spec (F := F) htol (sortedItems items) (sortedItems_pairwise items hkeys)
    (fun axis plane q h => hins axis plane q ((hm _).mp h)) (fun axis plane q r h => hcut axis plane q r ((hm _).mp h)) s hs kvs hk
    (fun x hx => h0 x ((hm _).mp hx)) (fun axis plane h => hfit axis plane ((hm _).mp h))
  refine ⟨r, kvs', g1, g2, by rw [g3, remaining_perm hp], by rw [g4, remaining_perm hp], ⟨g5, fun i hi => g5' i fun h => hi ((hp.map _).mem_iff.mp h),
    fun i a b h => g5'' i a b ((hm _).mpr h)⟩, g6, fun u hu hon => ?_⟩
  rw [← remaining_perm hp]
  exact g7 u hu (fun axis plane p kv h => hon axis plane p kv ((hm _).mp h))

/-- C147: the order in which the dictionary was filled has no effect. -/
theorem extract_planes_order (insert : Spline K (List K) → ℕ → List K → Option (Spline K (List K))) (tol : K) (s : Spline K (List K))
    (items items' : List (ℕ × Plane K)) (hkeys : (items.map Prod.fst).Nodup) (h : items.Perm items') :
    extractCall insert tol s (.planes items) none = extractCall insert tol s (.planes items') none := by
  have e : sortedItems items = sortedItems items' := by
    refine List.Perm.eq_of_pairwise (le := fun x y => y.1 < x.1) (fun a b _ _ h1 h2 => absurd h1 (by omega)) (sortedItems_pairwise items hkeys)
      (sortedItems_pairwise items' ((h.map _).nodup_iff.mp hkeys)) ?_
    exact (sortedItems_perm items).trans (h.trans (sortedItems_perm items').symm)
  simp only [extractCall, e]

/-- C147: a dictionary with one entry does what the call with the axis does; an interval beside a dictionary, and an axis without interval, raise. -/
theorem extract_planes_forms (insert : Spline K (List K) → ℕ → List K → Option (Spline K (List K))) (tol : K) (s : Spline K (List K)) (axis : ℕ) (plane : Plane K)
    (items : List (ℕ × Plane K)) :
    extractCall insert tol s (.planes [(axis, plane)]) none = extractCall insert tol s (.axis axis) (some plane) ∧
      extractCall insert tol s (.planes items) (some plane) = none ∧ extractCall insert tol s (.axis axis) none = none := by
  refine ⟨?_, rfl, rfl⟩
  simp only [extractCall, sortedItems, List.mergeSort_singleton, List.reverse_singleton]
  unfold extractLoop
  cases extractSpline insert tol s axis plane <;> simp [extractLoop]

/-! ### Bezier splines -/

/-- the parameter of the spline for the parameter `x` of the result along the axis `i`: fixed, or the place in the interval, whose ends are 0 and 1 for the result -/
def Spec.placedAt (items : List (ℕ × Plane K)) (i : ℕ) (x : K) : K :=
  match items.find? fun y => y.1 == i with
  | none => x
  | some (_, .at a) => a
  | some (_, .between a b) => a + (b - a) * x

/-- the parameters of the spline for parameters of the result (the entries of the fixed axes do not matter) -/
def Spec.placed (items : List (ℕ × Plane K)) (u : List K) : List K := u.mapIdx fun i x => Spec.placedAt items i x

/-- the plane fits to a direction of a Bezier spline: inside of the unit interval, not closer than the tolerance to its ends unless equal -/
def Spec.FitsUnit (tol : K) (plane : Plane K) : Prop :=
  match plane with
  | .at a => (a = 0 ∨ tol ≤ a) ∧ (a = 1 ∨ a + tol ≤ 1)
  | .between a b => 0 ≤ a ∧ b ≤ 1 ∧ (a = 0 ∨ tol ≤ a) ∧ (b = 1 ∨ b + tol ≤ 1) ∧ a + tol ≤ b

theorem inDomain_bezier {s : Spline K (List K)} (hk : s.knotVectors = none) (u : List K) :
    InDomain s u ↔ u.length = s.degrees.length ∧ ∀ x ∈ u, 0 ≤ x ∧ x ≤ 1 := by
  have : ∀ (ds : List ℕ) (u : List K), List.Forall₂ Direction.Contains (ds.map fun d => (⟨d, none⟩ : Direction K)) u ↔
      u.length = ds.length ∧ ∀ x ∈ u, 0 ≤ x ∧ x ≤ 1 := by
    intro ds
    induction ds with
    | nil => intro u; cases u <;> simp
    | cons d ds ih =>
      intro u
      cases u with
      | nil => simp
      | cons x u =>
        rw [List.map_cons, List.forall₂_cons, ih]
        simp only [Direction.Contains, Direction.lower, Direction.upper, List.length_cons, List.mem_cons, forall_eq_or_imp]
        constructor
        · rintro ⟨h1, h2, h3⟩
          exact ⟨by omega, h1, h3⟩
        · rintro ⟨h1, h2, h3⟩
          exact ⟨h2, by omega, h3⟩
  unfold InDomain directions
  rw [hk]
  exact this s.degrees u

theorem placedAt_unit {tol : K} (htol : 0 < tol) {items : List (ℕ × Plane K)} (hfit : ∀ x ∈ items, Spec.FitsUnit tol x.2) (i : ℕ) {x : K} (hx : 0 ≤ x ∧ x ≤ 1) :
    0 ≤ Spec.placedAt items i x ∧ Spec.placedAt items i x ≤ 1 := by
  unfold Spec.placedAt
  split
  · exact hx
  · rename_i a h
    obtain ⟨h1, h2⟩ := hfit _ (List.mem_of_find?_eq_some h)
    constructor
    · rcases h1 with h | h <;> linarith
    · rcases h2 with h | h <;> linarith
  · rename_i a b h
    obtain ⟨h1, h2, -, -, h3⟩ := hfit _ (List.mem_of_find?_eq_some h)
    have hab : 0 ≤ b - a := by linarith
    have := mul_nonneg hab hx.1
    have := mul_le_mul_of_nonneg_left hx.2 hab
    constructor <;> linarith

theorem placed_inDomain {tol : K} (htol : 0 < tol) {items : List (ℕ × Plane K)} (hfit : ∀ x ∈ items, Spec.FitsUnit tol x.2) {s : Spline K (List K)}
    (hk : s.knotVectors = none) {u : List K} (hu : InDomain s u) : InDomain s (Spec.placed items u) := by
  rw [inDomain_bezier hk] at hu ⊢
  refine ⟨by simp [Spec.placed, hu.1], fun x hx => ?_⟩
  unfold Spec.placed at hx
  rw [List.mem_mapIdx] at hx
  obtain ⟨i, hi, rfl⟩ := hx
  exact placedAt_unit htol hfit i (hu.2 _ (List.getElem_mem hi))

theorem placedAt_skip {items : List (ℕ × Plane K)} {i : ℕ} (h : ∀ x ∈ items, x.1 ≠ i) (x : K) : Spec.placedAt items i x = x := by
  unfold Spec.placedAt
  have : (items.find? fun y => y.1 == i) = none := by
    rw [List.find?_eq_none]
    intro y hy
    simpa using h y hy
  rw [this]

theorem placedAt_cons_ne {items : List (ℕ × Plane K)} {i n : ℕ} (plane : Plane K) (h : n ≠ i) (x : K) :
    Spec.placedAt ((n, plane) :: items) i x = Spec.placedAt items i x := by
  unfold Spec.placedAt
  rw [List.find?_cons_of_neg (by simpa using h)]

theorem placed_erase {items : List (ℕ × Plane K)} {n : ℕ} (h : ∀ x ∈ items, x.1 < n) (u : List K) :
    Spec.placed items (u.eraseIdx n) = (Spec.placed items u).eraseIdx n := by
  refine List.ext_getElem? fun i => ?_
  unfold Spec.placed
  rcases Nat.lt_or_ge i n with hi | hi
  · rw [List.getElem?_mapIdx, List.getElem?_eraseIdx_of_lt hi, List.getElem?_eraseIdx_of_lt hi, List.getElem?_mapIdx]
  · rw [List.getElem?_mapIdx, List.getElem?_eraseIdx_of_ge hi, List.getElem?_eraseIdx_of_ge hi, List.getElem?_mapIdx]
    congr 1
    funext x
    rw [placedAt_skip (fun y hy => by have := h y hy; omega), placedAt_skip (fun y hy => by have := h y hy; omega)]

theorem placed_cons {items : List (ℕ × Plane K)} {n : ℕ} (plane : Plane K) (u : List K) :
    Spec.placed ((n, plane) :: items) u = (Spec.placed items u).set n (Spec.placedAt [(n, plane)] n (u.getD n 0)) := by
  refine List.ext_getElem? fun i => ?_
  unfold Spec.placed
  by_cases hi : n = i
  · subst hi
    rcases Nat.lt_or_ge n u.length with hn | hn
    · rw [List.getElem?_set_self (by simpa using hn), List.getElem?_mapIdx, List.getElem?_eq_getElem hn, List.getD_eq_getElem _ _ hn]
      simp [Spec.placedAt]
    · rw [List.getElem?_eq_none (by simpa using hn), List.getElem?_eq_none (by simpa using hn)]
  · rw [List.getElem?_set_ne hi, List.getElem?_mapIdx, List.getElem?_mapIdx]
    congr 1
    funext x
    exact placedAt_cons_ne plane hi x

theorem placed_getD {items : List (ℕ × Plane K)} {n : ℕ} (h : ∀ x ∈ items, x.1 < n) (u : List K) : (Spec.placed items u).getD n 0 = u.getD n 0 := by
  unfold Spec.placed
  rw [List.getD_eq_getElem?_getD, List.getD_eq_getElem?_getD, List.getElem?_mapIdx]
  cases u[n]? with
  | none => rfl
  | some x => exact placedAt_skip (fun y hy => by have := h y hy; omega) x

theorem loop_bezier {insert : Spline K (List K) → ℕ → List K → Option (Spline K (List K))} {F : ℕ → Spline K (List K) → Prop} {tol : K} (htol : 0 < tol)
    (items : List (ℕ × Plane K)) (hsort : items.Pairwise fun x y => y.1 < x.1)
    (hins : ∀ axis plane q, (axis, plane) ∈ items → F axis q →
      ∃ q', insert q axis plane.locations = some q' ∧ F axis q' ∧ ExtractSpline.Spec.Inserted q q' axis plane.locations)
    (hcut : ∀ axis plane q r, (axis, plane) ∈ items → q.knotVectors = none → F axis (Create.withKnotVectors q) → extractSpline insert tol q axis plane = some r →
      ∀ axis' < axis, F axis' (Create.withKnotVectors r))
    (s : Spline K (List K)) (hs : ValidSpline s) (hk : s.knotVectors = none) (h0 : ∀ x ∈ items, F x.1 (Create.withKnotVectors s))
    (hfit : ∀ x ∈ items, x.1 < s.degrees.length ∧ Spec.FitsUnit tol x.2) :
    ∃ r, extractLoop insert tol items s = some r ∧ ValidSpline r ∧ r.degrees = Spec.remaining items s.degrees ∧
      r.knotVectors = none ∧ r.weights.isSome = s.weights.isSome ∧
      ∀ u, InDomain s u → InDomain r (Spec.remaining items u) ∧ ∀ k, point r (Spec.remaining items u) k = point s (Spec.placed items u) k := by
  induction items generalizing s with
  | nil =>
    refine ⟨s, rfl, hs, (remaining_nil _).symm, hk, rfl, fun u hu => ?_⟩
    rw [remaining_nil]
    refine ⟨hu, fun k => ?_⟩
    have : Spec.placed ([] : List (ℕ × Plane K)) u = u := List.ext_getElem? fun i => by
      unfold Spec.placed
      rw [List.getElem?_mapIdx]
      simp [Spec.placedAt]
    rw [this]
  | cons x items ih =>
    obtain ⟨n, plane⟩ := x
    rw [List.pairwise_cons] at hsort
    obtain ⟨hn, hf⟩ := hfit _ List.mem_cons_self
    have hp : s.degrees[n]? = some s.degrees[n] := List.getElem?_eq_getElem hn
    have hfit' : ∀ x ∈ items, Spec.FitsUnit tol x.2 := fun x hx => (hfit x (List.mem_cons_of_mem _ hx)).2
    cases plane with
    | «at» a =>
      obtain ⟨ha0, ha1⟩ := hf
      obtain ⟨r, e1, e2, e3, e4, e5, e6⟩ := ExtractSpline.extract_section_bezier hs hk hp (h0 _ List.mem_cons_self)
        (fun q hq => hins n (.at a) q List.mem_cons_self hq) htol ha0 ha1
      obtain ⟨r', g1, g2, g3, g4, g5, g6⟩ := ih hsort.2 (fun axis plane q hm hq => hins axis plane q (List.mem_cons_of_mem _ hm) hq)
        (fun axis plane q r hm hq => hcut axis plane q r (List.mem_cons_of_mem _ hm) hq) r e2 e4
        (fun x hx => hcut n (.at a) s r List.mem_cons_self hk (h0 _ List.mem_cons_self) e1 x.1 (hsort.1 x hx))
        (fun x hx => ⟨by
          rw [e3, List.length_eraseIdx_of_lt hn]
          have := hsort.1 x hx
          simp only at this
          have := (hfit x (List.mem_cons_of_mem _ hx)).1
          omega, hfit' x hx⟩)
      refine ⟨r', ?_, g2, ?_, g4, by rw [g5, e5], fun u hu => ?_⟩
      · unfold extractLoop
        rw [e1]
        exact g1
      · rw [g3, e3, remaining_at a (fun x hx => hsort.1 x hx) _ hn]
      · have hul : u.length = s.degrees.length := ((inDomain_bezier hk u).mp hu).1
        have hpu : InDomain s (Spec.placed ((n, .at a) :: items) u) := placed_inDomain htol (fun x hx => (hfit x hx).2) hk hu
        have hw : (Spec.placed ((n, .at a) :: items) u).eraseIdx n = Spec.placed items (u.eraseIdx n) := by
          rw [placed_cons, List.eraseIdx_set_eq, placed_erase (fun x hx => hsort.1 x hx)]
        have hg : (Spec.placed ((n, .at a) :: items) u).getD n 0 = a := by
          rw [placed_cons, List.getD_eq_getElem?_getD, List.getElem?_set_self (by simp [Spec.placed]; omega)]
          simp [Spec.placedAt]
        obtain ⟨m1, m2⟩ := e6 _ hpu hg
        have hdr : InDomain r (u.eraseIdx n) := by
          rw [inDomain_bezier e4]
          refine ⟨by rw [e3, List.length_eraseIdx_of_lt (by omega), List.length_eraseIdx_of_lt hn, hul], fun x hx => ?_⟩
          exact ((inDomain_bezier hk u).mp hu).2 x (List.mem_of_mem_eraseIdx hx)
        obtain ⟨o1, o2⟩ := g6 _ hdr
        rw [remaining_at a (fun x hx => hsort.1 x hx) u (by omega)]
        exact ⟨o1, fun k => by rw [o2, ← hw, m2]⟩
    | between a b =>
      obtain ⟨ha0, hb1, hsa, hsb, hab⟩ := hf
      obtain ⟨r, e1, e2, e3, e4, e5, e6⟩ := ExtractSpline.extract_interval_bezier hs hk hp (h0 _ List.mem_cons_self)
        (fun q hq => hins n (.between a b) q List.mem_cons_self hq) htol ha0 hb1 hsa hsb hab
      obtain ⟨r', g1, g2, g3, g4, g5, g6⟩ := ih hsort.2 (fun axis plane q hm hq => hins axis plane q (List.mem_cons_of_mem _ hm) hq)
        (fun axis plane q r hm hq => hcut axis plane q r (List.mem_cons_of_mem _ hm) hq) r e2 e4
        (fun x hx => hcut n (.between a b) s r List.mem_cons_self hk (h0 _ List.mem_cons_self) e1 x.1 (hsort.1 x hx))
        (fun x hx => by rw [e3]; exact hfit x (List.mem_cons_of_mem _ hx))
      refine ⟨r', ?_, g2, ?_, g4, by rw [g5, e5], fun u hu => ?_⟩
      · unfold extractLoop
        rw [e1]
        exact g1
      · rw [g3, e3, remaining_between]
      · have hdr : InDomain r u := by rw [inDomain_bezier e4, e3, ← inDomain_bezier hk]; exact hu
        obtain ⟨o1, o2⟩ := g6 u hdr
        rw [remaining_between]
        refine ⟨o1, fun k => ?_⟩
        rw [o2, e6 _ (placed_inDomain htol hfit' hk hu), placed_cons, placed_getD (fun x hx => hsort.1 x hx)]
        simp [Spec.placedAt]

theorem placedAt_perm {items items' : List (ℕ × Plane K)} (hkeys : (items.map Prod.fst).Nodup) (h : items.Perm items') (i : ℕ) (x : K) :
    Spec.placedAt items i x = Spec.placedAt items' i x := by
  have key : ∀ l : List (ℕ × Plane K), (l.map Prod.fst).Nodup → ∀ y ∈ l, (l.find? fun z => z.1 == y.1) = some y := by
    intro l
    induction l with
    | nil => intro _ y hy; simp at hy
    | cons z l ih =>
      intro hn y hy
      rw [List.map_cons, List.nodup_cons] at hn
      rcases List.mem_cons.mp hy with rfl | hy
      · exact List.find?_cons_of_pos (by simp)
      · rw [List.find?_cons_of_neg, ih hn.2 y hy]
        intro he
        exact hn.1 (List.mem_map.mpr ⟨y, hy, by simpa using (beq_iff_eq.mp he).symm⟩)
  have e : (items.find? fun y => y.1 == i) = items'.find? fun y => y.1 == i := by
    by_cases hi : ∃ y ∈ items, y.1 = i
    · obtain ⟨y, hy, rfl⟩ := hi
      rw [key items hkeys y hy, key items' ((h.map _).nodup_iff.mp hkeys) y (h.mem_iff.mp hy)]
    · push Not at hi
      rw [List.find?_eq_none.mpr (fun y hy => by simpa using hi y hy), List.find?_eq_none.mpr (fun y hy => by simpa using hi y (h.mem_iff.mpr hy))]
  unfold Spec.placedAt
  rw [e]

/-- C147 for Bezier splines: the result is a Bezier spline on the unit cube of the remaining directions. Its points are those of the spline with the fixed
parameters, and with the parameters of intervals moved from the unit interval to the interval. -/
theorem extract_planes_bezier_partial {insert : Spline K (List K) → ℕ → List K → Option (Spline K (List K))} {F : ℕ → Spline K (List K) → Prop} {tol : K} (htol : 0 < tol)
    (items : List (ℕ × Plane K)) (hkeys : (items.map Prod.fst).Nodup)
    (hins : ∀ axis plane q, (axis, plane) ∈ items → F axis q →
      ∃ q', insert q axis plane.locations = some q' ∧ F axis q' ∧ ExtractSpline.Spec.Inserted q q' axis plane.locations)
    (hcut : ∀ axis plane q r, (axis, plane) ∈ items → q.knotVectors = none → F axis (Create.withKnotVectors q) → extractSpline insert tol q axis plane = some r →
      ∀ axis' < axis, F axis' (Create.withKnotVectors r))
    (s : Spline K (List K)) (hs : ValidSpline s) (hk : s.knotVectors = none) (h0 : ∀ x ∈ items, F x.1 (Create.withKnotVectors s))
    (hfit : ∀ x ∈ items, x.1 < s.degrees.length ∧ Spec.FitsUnit tol x.2) :
    ∃ r, extractCall insert tol s (.planes items) none = some r ∧ ValidSpline r ∧ r.degrees = Spec.remaining items s.degrees ∧
      r.knotVectors = none ∧ r.weights.isSome = s.weights.isSome ∧
      ∀ u, InDomain s u → InDomain r (Spec.remaining items u) ∧ ∀ k, point r (Spec.remaining items u) k = point s (Spec.placed items u) k := by
  have hp := sortedItems_perm items
  have hm : ∀ x, x ∈ sortedItems items ↔ x ∈ items := fun x => hp.mem_iff
  obtain ⟨r, g1, g2, g3, g4, g5, g6⟩ := loop_bezier (F := F) htol (sortedItems items) (sortedItems_pairwise items hkeys)
    (fun axis plane q h => hins axis plane q ((hm _).mp h)) (fun axis plane q r h => hcut axis plane q r ((hm _).mp h)) s hs hk
    (fun x hx => h0 x ((hm _).mp hx)) (fun x h => hfit x ((hm _).mp h))
  refine ⟨r, g1, g2, by rw [g3, remaining_perm hp], g4, g5, fun u hu => ?_⟩
  obtain ⟨o1, o2⟩ := g6 u hu
  rw [remaining_perm hp] at o1
  refine ⟨o1, fun k => ?_⟩
  have e : Spec.placed items u = Spec.placed (sortedItems items) u := by
    unfold Spec.placed
    congr 1
    funext i x
    exact (placedAt_perm ((hp.map _).nodup_iff.mpr hkeys) hp i x).symm
  rw [e, ← o2 k, remaining_perm hp]

/-! ### an instance: a part of an edge -/

/-- four linear patches over the quarters of the unit square -/
def examplePatches : Spline ℚ (List ℚ) :=
  { degrees := [1, 1], knotVectors := some [[0, 0, 1/2, 1/2, 1, 1], [0, 0, 1/2, 1/2, 1, 1]], weights := none
    controlPoints := [[0], [1], [2], [3], [4], [5], [6], [7], [8], [9], [10], [11], [12], [13], [14], [15]] }

/-- the patches with the second parameter up to 1/2 -/
def exampleHalf : Spline ℚ (List ℚ) :=
  { degrees := [1, 1], knotVectors := some [[0, 0, 1/2, 1/2, 1, 1], [0, 0, 1/2, 1/2]], weights := none
    controlPoints := [[0], [1], [2], [3], [4], [5], [6], [7]] }

theorem examplePatches_valid : ValidSpline examplePatches := by
  refine ⟨?_, ?_, by decide +kernel, ?_⟩
  · intro kvs h; simp [examplePatches] at h; subst h; rfl
  · intro d hd kv hkv
    simp [examplePatches, directions] at hd
    subst hd
    simp at hkv
    subst hkv
    refine ⟨by norm_num, by simp, ?_⟩
    norm_num [Direction.lower, Direction.upper, knotSeq]
  · intro ws h; simp [examplePatches] at h

theorem exampleHalf_valid : ValidSpline exampleHalf := by
  refine ⟨?_, ?_, by decide +kernel, ?_⟩
  · intro kvs h; simp [exampleHalf] at h; subst h; rfl
  · intro d hd kv hkv
    simp [exampleHalf, directions] at hd
    rcases hd with rfl | rfl
    all_goals
      simp at hkv
      subst hkv
      refine ⟨by norm_num, by simp, ?_⟩
      norm_num [Direction.lower, Direction.upper, knotSeq]
  · intro ws h; simp [exampleHalf] at h

theorem count_full {kv : List ℚ} {p : ℕ} {locs : List ℚ} (h : ∀ v ∈ locs, p + 1 ≤ kv.count v) (v : ℚ) :
    kv.count v = max (kv.count v) (min (p + 1) (kv.count v + locs.count v)) := by
  by_cases hv : v ∈ locs
  · have := h v hv
    omega
  · rw [List.count_eq_zero_of_not_mem hv]
    omega

/-- inserting knots that are complete already changes nothing -/
theorem inserted_self {s : Spline ℚ (List ℚ)} (hs : ValidSpline s) (axis : ℕ) (locs : List ℚ)
    (h : ∀ kvs p kv, s.knotVectors = some kvs → s.degrees[axis]? = some p → kvs[axis]? = some kv → ∀ v ∈ locs, p + 1 ≤ kv.count v) :
    ExtractSpline.Spec.Inserted s s axis locs := by
  refine ⟨hs, rfl, fun kvs p kv h1 h2 h3 => ⟨kv, ?_, fun v => count_full (h kvs p kv h1 h2 h3) v⟩, rfl, fun u hu => ⟨hu, fun _ => rfl⟩⟩
  rw [h1]
  obtain ⟨h4, rfl⟩ := List.getElem?_eq_some_iff.mp h3
  rw [List.set_getElem_self]

example : ∃ r kvs', extractCall (fun q _ _ => some q) (1/1000 : ℚ) examplePatches (.planes [(0, .at (1/2)), (1, .between 0 (1/2))]) none = some r ∧ ValidSpline r ∧
    r.degrees = [1] ∧ r.knotVectors = some (Spec.remaining [(0, .at (1/2 : ℚ)), (1, .between 0 (1/2))] kvs') ∧
    Spec.Restricted [(0, .at (1/2)), (1, .between 0 (1/2))] [1, 1] [[0, 0, 1/2, 1/2, 1, 1], [0, 0, 1/2, 1/2, 1, 1]] kvs' ∧ r.weights.isSome = false ∧
    ∀ u, InDomain examplePatches u → (∀ axis plane p kv, (axis, plane) ∈ [(0, Plane.at (1/2)), (1, .between 0 (1/2))] → ([1, 1] : List ℕ)[axis]? = some p →
      [[0, 0, 1/2, 1/2, 1, 1], [0, 0, 1/2, 1/2, 1, 1]][axis]? = some kv → Spec.On p kv plane (u.getD axis 0)) →
      InDomain r (Spec.remaining [(0, .at (1/2 : ℚ)), (1, .between 0 (1/2))] u) ∧
        ∀ k, point r (Spec.remaining [(0, .at (1/2 : ℚ)), (1, .between 0 (1/2))] u) k = point examplePatches u k := by
  refine extract_planes_partial (F := fun i q => q = examplePatches ∨ (i = 0 ∧ q = exampleHalf)) (by norm_num) _ (by simp) ?_ ?_ examplePatches
    examplePatches_valid _ rfl (fun _ _ => Or.inl rfl) ?_
  · intro axis plane q hm hq
    refine ⟨q, rfl, hq, ?_⟩
    simp only [List.mem_cons, List.not_mem_nil, or_false, Prod.mk.injEq] at hm
    rcases hm with ⟨rfl, rfl⟩ | ⟨rfl, rfl⟩ <;> rcases hq with rfl | ⟨h, rfl⟩
    · refine inserted_self examplePatches_valid _ _ (fun kvs p kv h1 h2 h3 => ?_)
      simp only [examplePatches, Option.some.injEq] at h1; subst h1
      simp only [examplePatches, List.getElem?_cons_zero, Option.some.injEq] at h2 h3
      subst h2 h3
      decide +kernel
    · refine inserted_self exampleHalf_valid _ _ (fun kvs p kv h1 h2 h3 => ?_)
      simp only [exampleHalf, Option.some.injEq] at h1; subst h1
      simp only [exampleHalf, List.getElem?_cons_zero, Option.some.injEq] at h2 h3
      subst h2 h3
      decide +kernel
    · refine inserted_self examplePatches_valid _ _ (fun kvs p kv h1 h2 h3 => ?_)
      simp only [examplePatches, Option.some.injEq] at h1; subst h1
      simp only [examplePatches, List.getElem?_cons_succ, List.getElem?_cons_zero, Option.some.injEq] at h2 h3
      subst h2 h3
      decide +kernel
    · exact absurd h (by norm_num)
  · intro axis plane q r hm hq hr axis' hlt
    simp only [List.mem_cons, List.not_mem_nil, or_false, Prod.mk.injEq] at hm
    rcases hm with ⟨rfl, rfl⟩ | ⟨rfl, rfl⟩
    · exact absurd hlt (by omega)
    · rcases hq with rfl | ⟨h, rfl⟩
      · refine Or.inr ⟨by omega, ?_⟩
        have e : extractSpline (fun q _ _ => some q) (1/1000 : ℚ) examplePatches 1 (.between 0 (1/2)) = some exampleHalf := by decide +kernel
        rw [e] at hr
        exact (Option.some.inj hr).symm
      · exact absurd h (by norm_num)
  · intro axis plane hm
    simp only [List.mem_cons, List.not_mem_nil, or_false, Prod.mk.injEq] at hm
    rcases hm with ⟨rfl, rfl⟩ | ⟨rfl, rfl⟩
    · refine ⟨1, _, rfl, rfl, ⟨1, by simp, by norm_num, by decide +kernel⟩, ⟨1, by simp, by norm_num⟩, ?_⟩
      decide +kernel
    · refine ⟨1, _, rfl, rfl, by norm_num, ?_⟩
      decide +kernel

/-- the result of the call: the curve over the first half of the second parameter; the other order of treatment would take the second parameter of a curve -/
example : extractCall (fun q _ _ => some q) (1/1000 : ℚ) examplePatches (.planes [(0, .at (1/2)), (1, .between 0 (1/2))]) none =
      some { degrees := [1], knotVectors := some [[0, 0, 1/2, 1/2]], weights := none, controlPoints := [[2], [6]] } ∧
    extractLoop (fun q _ _ => some q) (1/1000 : ℚ) [(0, .at (1/2)), (1, .between 0 (1/2))] examplePatches = none ∧
    Spec.remaining [(0, .at (1/2 : ℚ)), (1, .between 0 (1/2))] [1/2, 1/4] = [1/4] := by
  have e : sortedItems [(0, .at (1/2)), (1, .between 0 (1/2))] = [(1, Plane.between 0 (1/2 : ℚ)), (0, .at (1/2))] := by
    simp [sortedItems, List.mergeSort, List.MergeSort.Internal.splitInTwo, List.merge]
  refine ⟨?_, by decide +kernel, by decide +kernel⟩
  simp only [extractCall, e]
  decide +kernel

example : extractCall (fun q _ _ => some q) (1/1000 : ℚ) examplePatches (.planes [(0, .at (1/2)), (1, .between 0 (1/2))]) none =
    extractCall (fun q _ _ => some q) (1/1000 : ℚ) examplePatches (.planes [(1, .between 0 (1/2)), (0, .at (1/2))]) none :=
  extract_planes_order _ _ _ _ _ (by simp) (List.Perm.swap _ _ _)

/-! ### an instance: the whole of one direction of a Bezier surface and an edge in the other -/

/-- a bilinear patch -/
def exampleBilinear : Spline ℚ (List ℚ) := { degrees := [1, 1], knotVectors := none, weights := none, controlPoints := [[0], [1], [2], [5]] }

theorem exampleBilinear_valid : ValidSpline exampleBilinear := by
  refine ⟨?_, ?_, by decide +kernel, ?_⟩
  · intro kvs h; simp [exampleBilinear] at h
  · intro d hd kv hkv
    simp [exampleBilinear, directions] at hd
    subst hd
    simp at hkv
  · intro ws h; simp [exampleBilinear] at h

example : ∃ r, extractCall (fun q _ _ => some q) (1/1000 : ℚ) exampleBilinear (.planes [(0, .at 1), (1, .between 0 1)]) none = some r ∧ ValidSpline r ∧
    r.degrees = [1] ∧ r.knotVectors = none ∧ r.weights.isSome = false ∧
    ∀ u, InDomain exampleBilinear u → InDomain r (Spec.remaining [(0, .at (1 : ℚ)), (1, .between 0 1)] u) ∧
      ∀ k, point r (Spec.remaining [(0, .at (1 : ℚ)), (1, .between 0 1)] u) k = point exampleBilinear (Spec.placed [(0, .at 1), (1, .between 0 1)] u) k := by
  refine extract_planes_bezier_partial (F := fun _ q => q = Create.withKnotVectors exampleBilinear) (by norm_num) _ (by simp) ?_ ?_ exampleBilinear
    exampleBilinear_valid rfl (fun _ _ => rfl) ?_
  · intro axis plane q hm hq
    subst hq
    refine ⟨_, rfl, rfl, ?_⟩
    have hv := (Create.withKnotVectors_evaluates exampleBilinear_valid).1
    have e : Create.withKnotVectors exampleBilinear =
      { degrees := [1, 1], knotVectors := some [[0, 0, 1, 1], [0, 0, 1, 1]], weights := none, controlPoints := [[0], [1], [2], [5]] } := by decide +kernel
    simp only [List.mem_cons, List.not_mem_nil, or_false, Prod.mk.injEq] at hm
    rw [e] at hv ⊢
    rcases hm with ⟨rfl, rfl⟩ | ⟨rfl, rfl⟩
    all_goals
      refine inserted_self hv _ _ (fun kvs p kv h1 h2 h3 => ?_)
      simp only [Option.some.injEq] at h1; subst h1
      simp only [List.getElem?_cons_succ, List.getElem?_cons_zero, Option.some.injEq] at h2 h3
      subst h2 h3
      decide +kernel
  · intro axis plane q r hm hk hq hr axis' hlt
    simp only [List.mem_cons, List.not_mem_nil, or_false, Prod.mk.injEq] at hm
    rcases hm with ⟨rfl, rfl⟩ | ⟨rfl, rfl⟩
    · exact absurd hlt (by omega)
    · have hd : q.degrees = [1, 1] := by
        have := congrArg Spline.degrees hq
        rw [(ExtractSpline.bezier_knots hk).2.1] at this
        exact this
      have e : extractSpline (fun q _ _ => some q) (1/1000 : ℚ) q 1 (.between 0 1) =
          extractSpline (fun q _ _ => some q) (1/1000 : ℚ) exampleBilinear 1 (.between 0 1) := by
        unfold extractSpline
        rw [hd, hk, hq]
        rfl
      have e' : extractSpline (fun q _ _ => some q) (1/1000 : ℚ) exampleBilinear 1 (.between 0 1) = some exampleBilinear := by decide +kernel
      rw [e, e'] at hr
      rw [← Option.some.inj hr]
  · intro x hx
    simp only [List.mem_cons, List.not_mem_nil, or_false] at hx
    rcases hx with rfl | rfl
    · exact ⟨by decide, by norm_num [Spec.FitsUnit]⟩
    · exact ⟨by decide, by norm_num [Spec.FitsUnit]⟩

example : Spec.placed [(0, .at 1), (2, .between (1/4) (3/4))] [1/7, 1/3, (1/2 : ℚ)] = [1, 1/3, 1/2] := by decide +kernel

end Splinepy.ExtractPlanes
