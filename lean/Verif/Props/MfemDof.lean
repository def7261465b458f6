import Verif.Model.Mfem
import Verif.Props.Index
import Mathlib.Algebra.Order.BigOperators.Group.Multiset
import Mathlib.Data.Multiset.Bind
import Mathlib.Data.List.Sort
import Mathlib.Tactic.Abel

/-!
C79: the numbering of control points for MFEM is a permutation; the second list is its inverse; corners come first, then edges, faces, interior.
-/
namespace Splinepy.Mfem
open Splinepy.Spec Splinepy.Index

/-! ### Specification -/

/-- number of directions in which the point of the grid is at an end -/
def Spec.ends (res cs : List ℕ) : ℕ := (List.zipWith (fun r c => if c = 0 ∨ c + 1 = r then 1 else 0) res cs).sum

/-- `fwd`, `back` are permutations of `0, …, n - 1`, inverse to each other -/
def Spec.InversePermutations (n : ℕ) (fwd back : List ℕ) : Prop :=
  fwd.Perm (List.range n) ∧ back.Perm (List.range n) ∧ (∀ i < n, back.getD (fwd.getD i 0) 0 = i) ∧ (∀ i < n, fwd.getD (back.getD i 0) 0 = i)

/-- corners of the reference elements of MFEM, 2D and 3D, in their order -/
def Spec.mfemCorners : ℕ → List (List Bool)
  | 2 => [[false, false], [true, false], [true, true], [false, true]]
  | 3 => [[false, false, false], [true, false, false], [true, true, false], [false, true, false], [false, false, true], [true, false, true], [true, true, true], [false, true, true]]
  | _ => []

/-- id of the control point at a corner -/
def Spec.cornerId (res : List ℕ) (c : List Bool) : ℕ := flat res (List.zipWith (fun r (b : Bool) => if b then r - 1 else 0) res c)

open Spec

/-! ### slices -/

theorem slice_inner (n : ℕ) : slice n 1 (-1) = List.range' 1 (n - 2) := by
  rcases n with - | - | n
  · rfl
  · rfl
  · simp only [slice]
    have h1 : (min 1 ((n + 1 + 1 : ℕ) : ℤ)) = 1 := by omega
    have h2 : max (-1 + ((n + 1 + 1 : ℕ) : ℤ)) 0 = n + 1 := by omega
    simp only [h2, h1, show ¬ ((1 : ℤ) < 0) by decide, if_false, show ((-1 : ℤ) < 0) by decide, if_true]
    congr 1

theorem sliceBack_inner (n : ℕ) : sliceBack n (-2) 0 = (List.range' 1 (n - 2)).reverse := by
  rcases n with - | - | n
  · rfl
  · rfl
  · simp only [sliceBack]
    have h1 : (min 0 (((n + 1 + 1 : ℕ) : ℤ) - 1)) = 0 := by omega
    have h2 : max (-2 + ((n + 1 + 1 : ℕ) : ℤ)) (-1) = n := by omega
    simp only [h1, h2, show ¬ ((0 : ℤ) < 0) by decide, if_false, show ((-2 : ℤ) < 0) by decide, if_true]
    apply List.ext_getElem
    · simp
    · intro i hi hi'
      simp only [List.length_map, List.length_range] at hi
      simp only [List.getElem_map, List.getElem_range, List.getElem_reverse, List.getElem_range', List.length_range']
      omega

theorem range_ends {n : ℕ} (h : 2 ≤ n) : List.range n = 0 :: (List.range' 1 (n - 2) ++ [n - 1]) := by
  obtain ⟨m, rfl⟩ : ∃ m, n = m + 2 := ⟨n - 2, by omega⟩
  rw [List.range_eq_range', List.range'_succ, List.range'_concat]
  simp [Nat.add_comm]

/-! ### argsort -/

theorem argsort_perm (l : List ℕ) : (argsort l).Perm (List.range l.length) := List.perm_insertionSort _ _

theorem getD_argsort {l : List ℕ} {n : ℕ} (h : l.Perm (List.range n)) : (argsort l).map (fun i => l.getD i 0) = List.range n := by
  have hl : l.length = n := by rw [h.length_eq, List.length_range]
  apply List.Perm.eq_of_pairwise (le := (· ≤ ·))
  · exact fun a b _ _ => Nat.le_antisymm
  · rw [List.pairwise_map]
    have : Std.Total fun i j => l.getD i 0 ≤ l.getD j 0 := ⟨fun i j => Nat.le_total _ _⟩
    have : IsTrans ℕ fun i j => l.getD i 0 ≤ l.getD j 0 := ⟨fun _ _ _ => Nat.le_trans⟩
    exact List.pairwise_insertionSort (fun i j => l.getD i 0 ≤ l.getD j 0) _
  · exact List.pairwise_le_range
  · refine ((argsort_perm l).map _).trans (List.Perm.trans ?_ h)
    refine List.Perm.of_eq ?_
    apply List.ext_getElem
    · simp
    · intro i h1 h2
      simp only [List.length_map, List.length_range] at h1
      simp [h1]

theorem inverse_permutations {l : List ℕ} {n : ℕ} (h : l.Perm (List.range n)) : InversePermutations n l (argsort l) := by
  have hl : l.length = n := by rw [h.length_eq, List.length_range]
  have ha : (argsort l).Perm (List.range n) := by have := argsort_perm l; rwa [hl] at this
  have hal : (argsort l).length = n := by rw [ha.length_eq, List.length_range]
  have key : ∀ i < n, l.getD ((argsort l).getD i 0) 0 = i := by
    intro i hi
    have := congrArg (fun x : List ℕ => x.getD i 0) (getD_argsort h)
    beta_reduce at this
    rw [List.getD_eq_getElem _ _ (by simpa [hal] using hi), List.getElem_map, List.getD_eq_getElem (List.range n) _ (by simpa using hi), List.getElem_range] at this
    rw [List.getD_eq_getElem (argsort l) _ (by omega)]
    exact this
  refine ⟨h, ha, fun i hi => ?_, key⟩
  have hm : l.getD i 0 < n := by
    have : l.getD i 0 ∈ l := by rw [List.getD_eq_getElem _ _ (by omega)]; exact List.getElem_mem _
    simpa using h.subset this
  have hn : l.Nodup := h.nodup_iff.2 List.nodup_range
  have hj : (argsort l).getD (l.getD i 0) 0 < n := by
    have : (argsort l).getD (l.getD i 0) 0 ∈ argsort l := by rw [List.getD_eq_getElem (argsort l) _ (by omega)]; exact List.getElem_mem _
    simpa using ha.subset this
  have e := key _ hm
  generalize (argsort l).getD (l.getD i 0) 0 = j at e hj ⊢
  rw [List.getD_eq_getElem l _ (by omega), List.getD_eq_getElem l _ (by omega)] at e
  exact (List.Nodup.getElem_inj_iff hn).1 e

/-! ### The pieces -/

theorem firstFastest_two {α : Type} (a b : List α) : firstFastest [a, b] = b.flatMap fun y => a.map fun x => [x, y] := by
  simp [firstFastest, List.flatMap_map]

theorem get_two {nx ny : ℕ} {xs ys : List ℕ} (hx : ∀ x ∈ xs, x < nx) (hy : ∀ y ∈ ys, y < ny) :
    multiIndexGet [nx, ny] [xs, ys] = some (ys.flatMap fun y => xs.map fun x => flat [nx, ny] [x, y]) := by
  rw [multi_index_get]
  · rw [firstFastest_two, List.map_flatMap]
    simp [Function.comp_def]
  · exact List.Forall₂.cons hx (List.Forall₂.cons hy List.Forall₂.nil)


theorem get_three {nx ny nz : ℕ} {xs ys zs : List ℕ} (hx : ∀ x ∈ xs, x < nx) (hy : ∀ y ∈ ys, y < ny) (hz : ∀ z ∈ zs, z < nz) :
    multiIndexGet [nx, ny, nz] [xs, ys, zs] = some (zs.flatMap fun z => ys.flatMap fun y => xs.map fun x => flat [nx, ny, nz] [x, y, z]) := by
  rw [multi_index_get]
  · simp [firstFastest, List.flatMap_map, List.map_flatMap, Function.comp_def, List.flatMap_assoc]
  · exact List.Forall₂.cons hx (List.Forall₂.cons hy (List.Forall₂.cons hz List.Forall₂.nil))

/-- all entries for two sets of indices -/
def block2 (f : ℕ → ℕ → ℕ) (xs ys : Multiset ℕ) : Multiset ℕ := ys.bind fun y => xs.map fun x => f x y

/-- all entries for three sets of indices -/
def block3 (f : ℕ → ℕ → ℕ → ℕ) (xs ys zs : Multiset ℕ) : Multiset ℕ := zs.bind fun z => ys.bind fun y => xs.map fun x => f x y z

theorem coe_block2 (f : ℕ → ℕ → ℕ) (xs ys : List ℕ) : ((ys.flatMap fun y => xs.map fun x => f x y : List ℕ) : Multiset ℕ) = block2 f xs ys := by
  simp only [block2, ← Multiset.coe_bind, ← Multiset.map_coe]

theorem coe_block3 (f : ℕ → ℕ → ℕ → ℕ) (xs ys zs : List ℕ) :
    ((zs.flatMap fun z => ys.flatMap fun y => xs.map fun x => f x y z : List ℕ) : Multiset ℕ) = block3 f xs ys zs := by
  simp only [block3, ← Multiset.coe_bind, ← Multiset.map_coe]

theorem block2_add_left (f : ℕ → ℕ → ℕ) (a a' b : Multiset ℕ) : block2 f (a + a') b = block2 f a b + block2 f a' b := by simp [block2, Multiset.bind_add]

theorem block2_add_right (f : ℕ → ℕ → ℕ) (a b b' : Multiset ℕ) : block2 f a (b + b') = block2 f a b + block2 f a b' := by simp [block2, Multiset.add_bind]

theorem block3_add_left (f : ℕ → ℕ → ℕ → ℕ) (a a' b c : Multiset ℕ) : block3 f (a + a') b c = block3 f a b c + block3 f a' b c := by simp [block3, Multiset.bind_add]

theorem block3_add_mid (f : ℕ → ℕ → ℕ → ℕ) (a b b' c : Multiset ℕ) : block3 f a (b + b') c = block3 f a b c + block3 f a b' c := by
  simp [block3, Multiset.bind_add, Multiset.add_bind]

theorem block3_add_right (f : ℕ → ℕ → ℕ → ℕ) (a b c c' : Multiset ℕ) : block3 f a b (c + c') = block3 f a b c + block3 f a b c' := by simp [block3, Multiset.add_bind]

theorem range_multiset {n : ℕ} (h : 2 ≤ n) : ((List.range n : List ℕ) : Multiset ℕ) = ({0} : Multiset ℕ) + ({n - 1} : Multiset ℕ) + (List.range' 1 (n - 2) : List ℕ) := by
  rw [range_ends h, ← Multiset.cons_coe, ← Multiset.coe_add]
  simp only [Multiset.coe_singleton, ← Multiset.singleton_add]
  abel

theorem inner_lt {n : ℕ} : ∀ i ∈ List.range' 1 (n - 2), i < n := by
  intro i hi
  rw [List.mem_range'_1] at hi
  omega

theorem last_lt {n : ℕ} (h : 2 ≤ n) : ∀ i ∈ last n, i < n := by simp [last]; omega

theorem zero_lt' {n : ℕ} (h : 2 ≤ n) : ∀ i ∈ [0], i < n := by simp; omega

theorem all_two (nx ny : ℕ) : block2 (fun x y => flat [nx, ny] [x, y]) (List.range nx : List ℕ) (List.range ny : List ℕ) = (List.range (nx * ny) : List ℕ) := by
  have := multi_index_all [nx, ny]
  rw [List.map_cons, List.map_cons, List.map_nil, get_two (by simp) (by simp)] at this
  rw [← coe_block2, Option.some.inj this]
  simp

theorem all_three (nx ny nz : ℕ) : block3 (fun x y z => flat [nx, ny, nz] [x, y, z]) (List.range nx : List ℕ) (List.range ny : List ℕ) (List.range nz : List ℕ) =
    (List.range (nx * (ny * nz)) : List ℕ) := by
  have := multi_index_all [nx, ny, nz]
  rw [List.map_cons, List.map_cons, List.map_cons, List.map_nil, get_three (by simp) (by simp) (by simp)] at this
  rw [← coe_block3, Option.some.inj this]
  simp

theorem block2_single (f : ℕ → ℕ → ℕ) (x y : ℕ) : block2 f {x} {y} = {f x y} := by simp [block2]

theorem block3_single (f : ℕ → ℕ → ℕ → ℕ) (x y z : ℕ) : block3 f {x} {y} {z} = {f x y z} := by simp [block3]

/-- 1 for the ends of an axis, else 0 -/
def endOf (n c : ℕ) : ℕ := if c = 0 ∨ c + 1 = n then 1 else 0

theorem endOf_zero (n : ℕ) : ∀ c ∈ [0], endOf n c = 1 := by simp [endOf]

theorem endOf_last {n : ℕ} (h : 2 ≤ n) : ∀ c ∈ last n, endOf n c = 1 := by
  simp [endOf, last]
  omega

theorem endOf_inner {n : ℕ} : ∀ c ∈ List.range' 1 (n - 2), endOf n c = 0 := by
  intro c hc
  rw [List.mem_range'_1] at hc
  simp [endOf]
  omega

theorem ends_two {nx ny : ℕ} {xs ys : List ℕ} {a b : ℕ} (hx : ∀ x ∈ xs, x < nx) (hy : ∀ y ∈ ys, y < ny) (hxe : ∀ x ∈ xs, endOf nx x = a) (hye : ∀ y ∈ ys, endOf ny y = b) :
    ∀ i ∈ (ys.flatMap fun y => xs.map fun x => flat [nx, ny] [x, y]), ends [nx, ny] (digits [nx, ny] i) = a + b := by
  intro i hi
  simp only [List.mem_flatMap, List.mem_map] at hi
  obtain ⟨y, h1, x, h2, rfl⟩ := hi
  rw [digits_flat _ _ (List.Forall₂.cons (hx x h2) (List.Forall₂.cons (hy y h1) List.Forall₂.nil)), ← hxe x h2, ← hye y h1]
  simp [ends, endOf]

theorem ends_three {nx ny nz : ℕ} {xs ys zs : List ℕ} {a b c : ℕ} (hx : ∀ x ∈ xs, x < nx) (hy : ∀ y ∈ ys, y < ny) (hz : ∀ z ∈ zs, z < nz) (hxe : ∀ x ∈ xs, endOf nx x = a)
    (hye : ∀ y ∈ ys, endOf ny y = b) (hze : ∀ z ∈ zs, endOf nz z = c) :
    ∀ i ∈ (zs.flatMap fun z => ys.flatMap fun y => xs.map fun x => flat [nx, ny, nz] [x, y, z]), ends [nx, ny, nz] (digits [nx, ny, nz] i) = a + (b + c) := by
  intro i hi
  simp only [List.mem_flatMap, List.mem_map] at hi
  obtain ⟨z, h0, y, h1, x, h2, rfl⟩ := hi
  rw [digits_flat _ _ (List.Forall₂.cons (hx x h2) (List.Forall₂.cons (hy y h1) (List.Forall₂.cons (hz z h0) List.Forall₂.nil))), ← hxe x h2, ← hye y h1, ← hze z h0]
  simp [ends, endOf]

/-- a list made of levels, the highest level first -/
theorem levels_append {kind : ℕ → ℕ} {l m : List ℕ} {k : ℕ} (hl : ∀ i ∈ l, kind i = k) (hm : (m.map kind).Pairwise (· ≥ ·)) (hk : ∀ i ∈ m, kind i ≤ k) :
    ((l ++ m).map kind).Pairwise (· ≥ ·) := by
  rw [List.map_append, List.pairwise_append]
  refine ⟨?_, hm, ?_⟩
  · rw [List.pairwise_map]
    exact List.Pairwise.imp_of_mem (R := fun _ _ => True) (fun {a b} ha hb _ => by rw [hl a ha, hl b hb]) (List.pairwise_of_forall fun _ _ => trivial)
  · intro a ha b hb
    rw [List.mem_map] at ha hb
    obtain ⟨i, hi, rfl⟩ := ha
    obtain ⟨j, hj, rfl⟩ := hb
    rw [hl i hi]
    exact hk j hj

theorem levels_single {kind : ℕ → ℕ} {l : List ℕ} {k : ℕ} (hl : ∀ i ∈ l, kind i = k) : (l.map kind).Pairwise (· ≥ ·) := by
  have := levels_append (m := []) hl (by simp) (by simp)
  rwa [List.append_nil] at this

/-- a corner has all of its coordinates at the ends -/
theorem ends_corner_two {nx ny : ℕ} (hx : 2 ≤ nx) (hy : 2 ≤ ny) (a b : Bool) : ends [nx, ny] (digits [nx, ny] (cornerId [nx, ny] [a, b])) = 2 := by
  have e : ∀ n, 2 ≤ n → ∀ c : Bool, endOf n (if c then n - 1 else 0) = 1 := by intro n hn c; cases c <;> simp [endOf]; omega
  have l : ∀ n, 2 ≤ n → ∀ c : Bool, (if c then n - 1 else 0) < n := by intro n hn c; cases c <;> simp <;> omega
  have := ends_two (xs := [if a then nx - 1 else 0]) (ys := [if b then ny - 1 else 0]) (nx := nx) (ny := ny) (by simpa using l nx hx a) (by simpa using l ny hy b)
    (by simpa using e nx hx a) (by simpa using e ny hy b)
  exact this _ (by simp [cornerId])

theorem ends_corner_three {nx ny nz : ℕ} (hx : 2 ≤ nx) (hy : 2 ≤ ny) (hz : 2 ≤ nz) (a b c : Bool) :
    ends [nx, ny, nz] (digits [nx, ny, nz] (cornerId [nx, ny, nz] [a, b, c])) = 3 := by
  have e : ∀ n, 2 ≤ n → ∀ c : Bool, endOf n (if c then n - 1 else 0) = 1 := by intro n hn c; cases c <;> simp [endOf]; omega
  have l : ∀ n, 2 ≤ n → ∀ c : Bool, (if c then n - 1 else 0) < n := by intro n hn c; cases c <;> simp <;> omega
  have := ends_three (xs := [if a then nx - 1 else 0]) (ys := [if b then ny - 1 else 0]) (zs := [if c then nz - 1 else 0]) (nx := nx) (ny := ny) (nz := nz)
    (by simpa using l nx hx a) (by simpa using l ny hy b) (by simpa using l nz hz c) (by simpa using e nx hx a) (by simpa using e ny hy b) (by simpa using e nz hz c)
  exact this _ (by simp [cornerId])

/-- What is known about the order of the control points. -/
def Spec.GoodOrder (res fwd back : List ℕ) : Prop :=
  InversePermutations res.prod fwd back ∧ fwd.take (2 ^ res.length) = (mfemCorners res.length).map (cornerId res) ∧
    (fwd.map fun i => ends res (digits res i)).Pairwise (· ≥ ·)

/-- `dof_mapping` in 2D gives a permutation -/
theorem dofMap2_order {nx ny : ℕ} (hx : 2 ≤ nx) (hy : 2 ≤ ny) : ∃ l back, dofMap2 nx ny = some (l, back) ∧ GoodOrder [nx, ny] l back := by
  unfold dofMap2
  simp only [corners, slice_inner]
  rw [if_pos (by simp; omega), get_two inner_lt (zero_lt' hy), get_two inner_lt (last_lt hy), get_two (zero_lt' hx) inner_lt, get_two (last_lt hx) inner_lt,
    get_two inner_lt inner_lt]
  refine ⟨_, _, rfl, ?_, ?_, ?_⟩
  · refine inverse_permutations ?_
    rw [show [nx, ny].prod = nx * ny by simp, ← Multiset.coe_eq_coe, ← all_two, range_multiset hx, range_multiset hy]
    simp only [← Multiset.coe_add, Multiset.coe_reverse, coe_block2, last, block2_add_left, block2_add_right, Multiset.coe_singleton, block2_single]
    simp only [List.map_cons, List.map_nil, ← Multiset.cons_coe, Multiset.coe_nil, ← Multiset.singleton_add, List.zipWith_cons_cons, List.zipWith_nil_left, if_true,
      Bool.false_eq_true, if_false]
    abel
  · rfl
  · have i0 := ends_two (zero_lt' hx) (inner_lt (n := ny)) (endOf_zero nx) endOf_inner
    have i1 := ends_two (last_lt hx) (inner_lt (n := ny)) (endOf_last hx) endOf_inner
    have i2 := ends_two (inner_lt (n := nx)) (zero_lt' hy) endOf_inner (endOf_zero ny)
    have i3 := ends_two (inner_lt (n := nx)) (last_lt hy) endOf_inner (endOf_last hy)
    have i4 := ends_two (inner_lt (n := nx)) (inner_lt (n := ny)) endOf_inner endOf_inner
    rw [List.append_assoc]
    have E : ∀ i ∈ ([0].flatMap fun y => (List.range' 1 (nx - 2)).map fun x => flat [nx, ny] [x, y]) ++
        ((last ny).flatMap fun y => (List.range' 1 (nx - 2)).map fun x => flat [nx, ny] [x, y]).reverse ++
        ((List.range' 1 (ny - 2)).flatMap fun y => [0].map fun x => flat [nx, ny] [x, y]) ++
        ((List.range' 1 (ny - 2)).flatMap fun y => (last nx).map fun x => flat [nx, ny] [x, y]), ends [nx, ny] (digits [nx, ny] i) = 1 := by
      intro i hi
      simp only [List.mem_append, List.mem_reverse] at hi
      rcases hi with ((hi | hi) | hi) | hi
      · rw [i2 i hi]
      · rw [i3 i hi]
      · rw [i0 i hi]
      · rw [i1 i hi]
    refine levels_append (k := 2) ?_ (levels_append (k := 1) E (levels_single (k := 0) i4) ?_) ?_
    · have c := ends_corner_two hx hy
      intro i hi
      simp only [List.map_cons, List.map_nil, List.mem_cons, List.not_mem_nil, or_false] at hi
      rcases hi with rfl | rfl | rfl | rfl
      · exact c false false
      · exact c true false
      · exact c true true
      · exact c false true
    · intro i hi
      rw [i4 i hi]
      omega
    · intro i hi
      rw [List.mem_append] at hi
      rcases hi with hi | hi
      · rw [E i hi]; omega
      · rw [i4 i hi]; omega

theorem inner_lt' {n : ℕ} : ∀ i ∈ (List.range' 1 (n - 2)).reverse, i < n := fun i hi => inner_lt i (List.mem_reverse.1 hi)

theorem endOf_inner' {n : ℕ} : ∀ c ∈ (List.range' 1 (n - 2)).reverse, endOf n c = 0 := fun c hc => endOf_inner c (List.mem_reverse.1 hc)

set_option maxHeartbeats 1000000 in
/-- `dof_mapping` in 3D gives a permutation -/
theorem dofMap3_order {nx ny nz : ℕ} (hx : 2 ≤ nx) (hy : 2 ≤ ny) (hz : 2 ≤ nz) : ∃ l back, dofMap3 nx ny nz = some (l, back) ∧ GoodOrder [nx, ny, nz] l back := by
  unfold dofMap3
  simp only [corners, slice_inner, sliceBack_inner]
  rw [if_pos (by simp; omega), get_three (inner_lt (n := nx)) (zero_lt' hy) (zero_lt' hz), get_three (inner_lt (n := nx)) (last_lt hy) (zero_lt' hz), get_three (inner_lt (n := nx)) (zero_lt' hy) (last_lt hz), get_three (inner_lt (n := nx)) (last_lt hy) (last_lt hz), get_three (zero_lt' hx) (inner_lt (n := ny)) (zero_lt' hz), get_three (last_lt hx) (inner_lt (n := ny)) (zero_lt' hz), get_three (zero_lt' hx) (inner_lt (n := ny)) (last_lt hz), get_three (last_lt hx) (inner_lt (n := ny)) (last_lt hz), get_three (zero_lt' hx) (zero_lt' hy) (inner_lt (n := nz)), get_three (last_lt hx) (zero_lt' hy) (inner_lt (n := nz)), get_three (last_lt hx) (last_lt hy) (inner_lt (n := nz)), get_three (zero_lt' hx) (last_lt hy) (inner_lt (n := nz)), get_three (inner_lt (n := nx)) (inner_lt' (n := ny)) (zero_lt' hz), get_three (inner_lt (n := nx)) (zero_lt' hy) (inner_lt (n := nz)), get_three (last_lt hx) (inner_lt (n := ny)) (inner_lt (n := nz)), get_three (inner_lt' (n := nx)) (last_lt hy) (inner_lt (n := nz)), get_three (zero_lt' hx) (inner_lt' (n := ny)) (inner_lt (n := nz)), get_three (inner_lt (n := nx)) (inner_lt (n := ny)) (last_lt hz), get_three (inner_lt (n := nx)) (inner_lt (n := ny)) (inner_lt (n := nz))]
  refine ⟨_, _, rfl, ?_, ?_, ?_⟩
  · refine inverse_permutations ?_
    rw [show [nx, ny, nz].prod = nx * (ny * nz) by simp, ← Multiset.coe_eq_coe, ← all_three, range_multiset hx, range_multiset hy, range_multiset hz]
    simp only [← Multiset.coe_add, Multiset.coe_reverse, coe_block3, last, block3_add_left, block3_add_mid, block3_add_right, Multiset.coe_singleton, block3_single]
    simp only [List.map_cons, List.map_nil, ← Multiset.cons_coe, Multiset.coe_nil, ← Multiset.singleton_add, List.zipWith_cons_cons, List.zipWith_nil_left, if_true,
      Bool.false_eq_true, if_false]
    abel
  · rfl
  · have I := ends_three (inner_lt (n := nx)) (inner_lt (n := ny)) (inner_lt (n := nz)) (endOf_inner (n := nx)) (endOf_inner (n := ny)) (endOf_inner (n := nz))
    have E : ∀ i ∈ ([0].flatMap fun z => [0].flatMap fun y => (List.range' 1 (nx - 2)).map fun x => flat [nx, ny, nz] [x, y, z]) ++ ([0].flatMap fun z => (last ny).flatMap fun y => (List.range' 1 (nx - 2)).map fun x => flat [nx, ny, nz] [x, y, z]).reverse ++ ((last nz).flatMap fun z => [0].flatMap fun y => (List.range' 1 (nx - 2)).map fun x => flat [nx, ny, nz] [x, y, z]) ++ ((last nz).flatMap fun z => (last ny).flatMap fun y => (List.range' 1 (nx - 2)).map fun x => flat [nx, ny, nz] [x, y, z]).reverse ++ ([0].flatMap fun z => (List.range' 1 (ny - 2)).flatMap fun y => [0].map fun x => flat [nx, ny, nz] [x, y, z]) ++ ([0].flatMap fun z => (List.range' 1 (ny - 2)).flatMap fun y => (last nx).map fun x => flat [nx, ny, nz] [x, y, z]) ++ ((last nz).flatMap fun z => (List.range' 1 (ny - 2)).flatMap fun y => [0].map fun x => flat [nx, ny, nz] [x, y, z]) ++ ((last nz).flatMap fun z => (List.range' 1 (ny - 2)).flatMap fun y => (last nx).map fun x => flat [nx, ny, nz] [x, y, z]) ++ ((List.range' 1 (nz - 2)).flatMap fun z => [0].flatMap fun y => [0].map fun x => flat [nx, ny, nz] [x, y, z]) ++ ((List.range' 1 (nz - 2)).flatMap fun z => [0].flatMap fun y => (last nx).map fun x => flat [nx, ny, nz] [x, y, z]) ++ ((List.range' 1 (nz - 2)).flatMap fun z => (last ny).flatMap fun y => (last nx).map fun x => flat [nx, ny, nz] [x, y, z]) ++ ((List.range' 1 (nz - 2)).flatMap fun z => (last ny).flatMap fun y => [0].map fun x => flat [nx, ny, nz] [x, y, z]), ends [nx, ny, nz] (digits [nx, ny, nz] i) = 2 := by
      intro i hi
      simp only [List.mem_append, List.mem_reverse] at hi
      rcases hi with ((((((((((hi | hi) | hi) | hi) | hi) | hi) | hi) | hi) | hi) | hi) | hi) | hi
      · exact ends_three (inner_lt (n := nx)) (zero_lt' hy) (zero_lt' hz) (endOf_inner (n := nx)) (endOf_zero ny) (endOf_zero nz) i hi
      · exact ends_three (inner_lt (n := nx)) (last_lt hy) (zero_lt' hz) (endOf_inner (n := nx)) (endOf_last hy) (endOf_zero nz) i hi
      · exact ends_three (inner_lt (n := nx)) (zero_lt' hy) (last_lt hz) (endOf_inner (n := nx)) (endOf_zero ny) (endOf_last hz) i hi
      · exact ends_three (inner_lt (n := nx)) (last_lt hy) (last_lt hz) (endOf_inner (n := nx)) (endOf_last hy) (endOf_last hz) i hi
      · exact ends_three (zero_lt' hx) (inner_lt (n := ny)) (zero_lt' hz) (endOf_zero nx) (endOf_inner (n := ny)) (endOf_zero nz) i hi
      · exact ends_three (last_lt hx) (inner_lt (n := ny)) (zero_lt' hz) (endOf_last hx) (endOf_inner (n := ny)) (endOf_zero nz) i hi
      · exact ends_three (zero_lt' hx) (inner_lt (n := ny)) (last_lt hz) (endOf_zero nx) (endOf_inner (n := ny)) (endOf_last hz) i hi
      · exact ends_three (last_lt hx) (inner_lt (n := ny)) (last_lt hz) (endOf_last hx) (endOf_inner (n := ny)) (endOf_last hz) i hi
      · exact ends_three (zero_lt' hx) (zero_lt' hy) (inner_lt (n := nz)) (endOf_zero nx) (endOf_zero ny) (endOf_inner (n := nz)) i hi
      · exact ends_three (last_lt hx) (zero_lt' hy) (inner_lt (n := nz)) (endOf_last hx) (endOf_zero ny) (endOf_inner (n := nz)) i hi
      · exact ends_three (last_lt hx) (last_lt hy) (inner_lt (n := nz)) (endOf_last hx) (endOf_last hy) (endOf_inner (n := nz)) i hi
      · exact ends_three (zero_lt' hx) (last_lt hy) (inner_lt (n := nz)) (endOf_zero nx) (endOf_last hy) (endOf_inner (n := nz)) i hi
    have F : ∀ i ∈ ([0].flatMap fun z => (List.range' 1 (ny - 2)).reverse.flatMap fun y => (List.range' 1 (nx - 2)).map fun x => flat [nx, ny, nz] [x, y, z]) ++ ((List.range' 1 (nz - 2)).flatMap fun z => [0].flatMap fun y => (List.range' 1 (nx - 2)).map fun x => flat [nx, ny, nz] [x, y, z]) ++ ((List.range' 1 (nz - 2)).flatMap fun z => (List.range' 1 (ny - 2)).flatMap fun y => (last nx).map fun x => flat [nx, ny, nz] [x, y, z]) ++ ((List.range' 1 (nz - 2)).flatMap fun z => (last ny).flatMap fun y => (List.range' 1 (nx - 2)).reverse.map fun x => flat [nx, ny, nz] [x, y, z]) ++ ((List.range' 1 (nz - 2)).flatMap fun z => (List.range' 1 (ny - 2)).reverse.flatMap fun y => [0].map fun x => flat [nx, ny, nz] [x, y, z]) ++ ((last nz).flatMap fun z => (List.range' 1 (ny - 2)).flatMap fun y => (List.range' 1 (nx - 2)).map fun x => flat [nx, ny, nz] [x, y, z]), ends [nx, ny, nz] (digits [nx, ny, nz] i) = 1 := by
      intro i hi
      simp only [List.mem_append] at hi
      rcases hi with ((((hi | hi) | hi) | hi) | hi) | hi
      · exact ends_three (inner_lt (n := nx)) (inner_lt' (n := ny)) (zero_lt' hz) (endOf_inner (n := nx)) (endOf_inner' (n := ny)) (endOf_zero nz) i hi
      · exact ends_three (inner_lt (n := nx)) (zero_lt' hy) (inner_lt (n := nz)) (endOf_inner (n := nx)) (endOf_zero ny) (endOf_inner (n := nz)) i hi
      · exact ends_three (last_lt hx) (inner_lt (n := ny)) (inner_lt (n := nz)) (endOf_last hx) (endOf_inner (n := ny)) (endOf_inner (n := nz)) i hi
      · exact ends_three (inner_lt' (n := nx)) (last_lt hy) (inner_lt (n := nz)) (endOf_inner' (n := nx)) (endOf_last hy) (endOf_inner (n := nz)) i hi
      · exact ends_three (zero_lt' hx) (inner_lt' (n := ny)) (inner_lt (n := nz)) (endOf_zero nx) (endOf_inner' (n := ny)) (endOf_inner (n := nz)) i hi
      · exact ends_three (inner_lt (n := nx)) (inner_lt (n := ny)) (last_lt hz) (endOf_inner (n := nx)) (endOf_inner (n := ny)) (endOf_last hz) i hi
    rw [List.append_assoc, List.append_assoc]
    refine levels_append (k := 3) ?_ (levels_append (k := 2) E (levels_append (k := 1) F (levels_single (k := 0) I) ?_) ?_) ?_
    · have c := ends_corner_three hx hy hz
      intro i hi
      simp only [List.map_cons, List.map_nil, List.mem_cons, List.not_mem_nil, or_false] at hi
      rcases hi with rfl | rfl | rfl | rfl | rfl | rfl | rfl | rfl
      · exact c false false false
      · exact c true false false
      · exact c true true false
      · exact c false true false
      · exact c false false true
      · exact c true false true
      · exact c true true true
      · exact c false true true
    · intro i hi
      rw [I i hi]
      omega
    · intro i hi
      rcases List.mem_append.1 hi with hi | hi
      · rw [F i hi]; omega
      · rw [I i hi]; omega
    · intro i hi
      rcases List.mem_append.1 hi with hi | hi
      · rw [E i hi]; omega
      · rcases List.mem_append.1 hi with hi | hi
        · rw [F i hi]; omega
        · rw [I i hi]; omega

/-- C79: `dof_mapping` returns two permutations of the control points, inverse to each other; the corners come first, in the order of MFEM, followed by the control points inside of
edges, inside of faces (3D) and inside of the patch. -/
theorem dof_mapping_order (res : List ℕ) (hd : res.length = 2 ∨ res.length = 3) (hr : ∀ r ∈ res, 2 ≤ r) :
    ∃ fwd back, dofMapping res = some (fwd, back) ∧ GoodOrder res fwd back := by
  rcases hd with hd | hd
  · obtain ⟨nx, ny, rfl⟩ := List.length_eq_two.1 hd
    exact dofMap2_order (hr nx (by simp)) (hr ny (by simp))
  · obtain ⟨nx, ny, nz, rfl⟩ := List.length_eq_three.1 hd
    exact dofMap3_order (hr nx (by simp)) (hr ny (by simp)) (hr nz (by simp))

example : dofMapping [3, 4] = some ([0, 2, 11, 9, 1, 10, 3, 6, 5, 8, 4, 7], [0, 4, 1, 6, 10, 8, 7, 11, 9, 3, 5, 2]) := by decide +kernel

/-- C79: other parametric dimensions raise `ValueError`. -/
theorem dof_mapping_rejects (res : List ℕ) (h : res.length ≠ 2 ∧ res.length ≠ 3) : dofMapping res = none := by
  unfold dofMapping
  split
  · simp at h
  · simp at h
  · rfl

/-- C79 fails for a direction with a single control point (degree 0): ids appear twice. -/
theorem dof_mapping_violates : ∃ fwd back, dofMapping [1, 3] = some (fwd, back) ∧ ¬ fwd.Nodup := ⟨_, _, rfl, by decide +kernel⟩

end Splinepy.Mfem
