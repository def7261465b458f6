import Verif.Lemma.Mirror
import Verif.Lemma.Grid
import Verif.Props.BezierSpline
import Verif.Props.MacroMatrix
import Verif.Props.MicroGeometry
import Verif.Spec.TileFaces
import Verif.Spec.TileValue

/-! Faces of Bezier patches: values on a face, and on a face which is read in another way. -/
set_option linter.unusedSectionVars false
namespace Splinepy.BezierFace
open Splinepy.Spec Splinepy.Slice Finset
open Splinepy.Index (Spline)
open Splinepy.Tiles (Patch)
open Splinepy.Tiles.Spec (bezier turn readings sides OnPlane)

/-! ### control points of a face -/

theorem getD_map_range {α : Type*} (f : ℕ → α) (n i : ℕ) (h : i < n) (d : α) : ((List.range n).map f).getD i d = f i := by
  rw [List.getD_eq_getElem _ _ (by simpa using h)]
  simp

theorem face_indices (l1 l2 : List ℕ) (n st : ℕ) (hst : st < n) :
    (List.range (l1 ++ n :: l2).prod).filter (fun i => (digits (l1 ++ n :: l2) i).getD l1.length 0 == st) =
      (List.range (l1 ++ l2).prod).map fun g => g % l1.prod + l1.prod * (st + n * (g / l1.prod)) := by
  rcases Nat.eq_zero_or_pos l1.prod with h0 | hA
  · simp [h0]
  rcases Nat.eq_zero_or_pos l2.prod with h0 | hC
  · simp [h0]
  have hmono : ∀ g g', g < g' → g % l1.prod + l1.prod * (st + n * (g / l1.prod)) < g' % l1.prod + l1.prod * (st + n * (g' / l1.prod)) := by
    intro g g' h
    have e1 := Nat.mod_add_div g l1.prod
    have e2 := Nat.mod_add_div g' l1.prod
    have m1 := Nat.mod_lt g hA
    have m2 := Nat.mod_lt g' hA
    set a := g % l1.prod
    set b := g' % l1.prod
    set c := g / l1.prod
    set d := g' / l1.prod
    rcases Nat.lt_trichotomy c d with hcd | hcd | hcd
    · have : c + 1 ≤ d := hcd
      have h2 : n * (c + 1) ≤ n * d := Nat.mul_le_mul_left _ this
      have h3 : st + n * c + 1 ≤ st + n * d := by nlinarith
      have h4 : l1.prod * (st + n * c + 1) ≤ l1.prod * (st + n * d) := Nat.mul_le_mul_left _ h3
      nlinarith
    · rw [hcd] at e1 ⊢
      omega
    · exfalso
      have : d + 1 ≤ c := hcd
      have h2 : l1.prod * (d + 1) ≤ l1.prod * c := Nat.mul_le_mul_left _ this
      nlinarith
  refine List.Perm.eq_of_pairwise (le := (· ≤ ·)) (fun a b _ _ => le_antisymm) ?_ ?_ ?_
  · exact (List.pairwise_le_range).filter _
  · rw [List.pairwise_map]
    exact List.pairwise_lt_range.imp fun h => (hmono _ _ h).le
  · rw [List.perm_ext_iff_of_nodup (List.nodup_range.filter _)]
    · intro x
      rw [List.mem_filter, List.mem_range, List.mem_map]
      constructor
      · rintro ⟨h1, h2⟩
        set y := x / l1.prod with hy
        have e1 : x = x % l1.prod + l1.prod * (y % n + n * (y / n)) := by rw [Nat.mod_add_div, hy, Nat.mod_add_div]
        have hn : 0 < n := by omega
        have hd := KnotInsertion.digits_split l1 l2 n (x % l1.prod) (y % n) (y / n) (Nat.mod_lt _ hA) (Nat.mod_lt _ hn)
        rw [← e1] at hd
        rw [hd] at h2
        have h3 : y % n = st := by simpa [digits_length] using h2
        have hc : y / n < l2.prod := by
          rw [Nat.div_lt_iff_lt_mul hn, hy, Nat.div_lt_iff_lt_mul hA]
          rw [List.prod_append, List.prod_cons] at h1
          nlinarith
        refine ⟨x % l1.prod + l1.prod * (y / n), ?_, ?_⟩
        · rw [List.mem_range, List.prod_append]
          have := Nat.mod_lt x hA
          nlinarith
        · rw [Nat.add_mul_mod_self_left, Nat.mod_mod, Nat.add_mul_div_left _ _ hA, Nat.div_eq_of_lt (Nat.mod_lt _ hA), zero_add, ← h3]
          exact e1.symm
      · rintro ⟨g, hg, rfl⟩
        rw [List.mem_range, List.prod_append] at hg
        have m1 := Nat.mod_lt g hA
        have hc : g / l1.prod < l2.prod := by
          rw [Nat.div_lt_iff_lt_mul hA]; nlinarith
        refine ⟨?_, ?_⟩
        · rw [List.prod_append, List.prod_cons]
          have h1 : st + n * (g / l1.prod) < n * l2.prod := by nlinarith
          nlinarith
        · rw [KnotInsertion.digits_split _ _ _ _ _ _ m1 hst]
          simp [digits_length]
    · exact List.nodup_range.map_on fun a _ b _ h => by
        rcases Nat.lt_trichotomy a b with h' | h' | h'
        · have := hmono _ _ h'; omega
        · exact h'
        · have := hmono _ _ h'; omega

variable {K : Type} [Field K] [LinearOrder K] [IsStrictOrderedRing K]

/-- polynomial with the coefficients `c` in the tensor product of Bernstein polynomials -/
def bez (degs : List ℕ) (c : ℕ → K) (v : List K) : K :=
  ∑ l ∈ range (degs.map (· + 1)).prod, basisProduct (List.zipWith (fun d x j => bernstein d j 0 1 x) degs v) (digits (degs.map (· + 1)) l) * c l

theorem bez_congr {degs : List ℕ} {c c' : ℕ → K} (h : ∀ l < (degs.map (· + 1)).prod, c l = c' l) (v : List K) : bez degs c v = bez degs c' v :=
  sum_congr rfl fun l hl => by rw [h l (mem_range.1 hl)]

theorem point_bezier (P : Patch K) (v : List K) (k : ℕ) : point (bezier P) v k = bez P.degrees (fun l => (P.cps.getD l []).getD k 0) v := by
  unfold bez
  rw [← MacroMatrix.bezier_value P.degrees _ v]
  rfl

/-- numbers of control points of the face -/
def endOf (P : Patch K) (d : ℕ) (last : Bool) : ℕ := if last then P.degrees.getD d 0 else 0

theorem split_at (degs : List ℕ) (d : ℕ) (hd : d < degs.length) : ∃ l1 p l2, degs = l1 ++ p :: l2 ∧ l1.length = d ∧ degs.eraseIdx d = l1 ++ l2 := by
  refine ⟨degs.take d, degs[d], degs.drop (d + 1), ?_, by rw [List.length_take]; omega, List.eraseIdx_eq_take_drop_succ ..⟩
  rw [List.cons_getElem_drop_succ, List.take_append_drop]

/-- control points of a face by number -/
theorem face_getD (P : Patch K) {l1 l2 : List ℕ} {p : ℕ} (hP : P.degrees = l1 ++ p :: l2) (last : Bool) :
    Tiles.Spec.face P l1.length last = (List.range ((l1 ++ l2).map (· + 1)).prod).map fun g =>
      P.cps.getD (g % (l1.map (· + 1)).prod + (l1.map (· + 1)).prod * ((if last then p else 0) + (p + 1) * (g / (l1.map (· + 1)).prod))) [] := by
  unfold Tiles.Spec.face
  have h := face_indices (l1.map (· + 1)) (l2.map (· + 1)) (p + 1) (if last then p else 0) (by split <;> omega)
  rw [List.length_map] at h
  rw [hP, show (l1 ++ p :: l2).getD l1.length 0 = p by simp, List.map_append, List.map_cons, h, List.map_map, List.map_append]
  rfl

/-- On a face the patch has the value of the polynomial with the control points of the face. -/
theorem face_point (P : Patch K) (d : ℕ) (hd : d < P.degrees.length) (last : Bool) (v : List K) (hl : v.length = P.degrees.length)
    (hv : v.getD d 0 = if last then 1 else 0) (k : ℕ) :
    point (bezier P) v k = bez (P.degrees.eraseIdx d) (fun g => ((Tiles.Spec.face P d last).getD g []).getD k 0) (v.eraseIdx d) := by
  obtain ⟨l1, p, l2, hP, hl1, he⟩ := split_at P.degrees d hd
  obtain ⟨v1, x, v2, hV, hv1, hve⟩ : ∃ v1 x v2, v = v1 ++ x :: v2 ∧ v1.length = d ∧ v.eraseIdx d = v1 ++ v2 := by
    refine ⟨v.take d, v[d], v.drop (d + 1), ?_, by rw [List.length_take]; omega, List.eraseIdx_eq_take_drop_succ ..⟩
    rw [List.cons_getElem_drop_succ, List.take_append_drop]
  have hx : x = if last then 1 else 0 := by
    rw [← hv, hV, ← hv1]; simp
  rw [point_bezier, he, hve, hP]
  subst hl1
  rw [face_getD P hP last]
  subst hV
  unfold bez
  rw [List.map_append, List.map_cons, List.zipWith_append hv1.symm, List.zipWith_cons_cons, List.map_append, List.zipWith_append hv1.symm]
  symm
  refine sum_drop _ _ (fun j => bernstein p j 0 1 x) _ _ (p + 1) (if last then p else 0) (by simp [hv1]) (by split <;> omega) ?_ ?_ _ _ ?_
  · rw [hx]
    cases last
    · simp [BezierSpline.bernstein_left p _ (zero_ne_one (α := K))]
    · simp [BezierSpline.bernstein_right p _ (le_refl p) (zero_ne_one (α := K))]
  · intro j hj hne
    rw [hx]
    cases last
    · simp only [Bool.false_eq_true, if_false] at hne ⊢
      rw [BezierSpline.bernstein_left p _ (zero_ne_one (α := K)), if_neg hne]
    · simp only [if_true] at hne ⊢
      rw [BezierSpline.bernstein_right p _ (by omega) (zero_ne_one (α := K)), if_neg hne]
  · intro a ha c hc
    have hlt : a + (l1.map (· + 1)).prod * c < (l1.map (· + 1)).prod * (l2.map (· + 1)).prod := by nlinarith
    rw [getD_map_range _ _ _ (by rw [List.prod_append]; exact hlt),
      Nat.add_mul_mod_self_left, Nat.mod_eq_of_lt ha, Nat.add_mul_div_left _ _ (by omega), Nat.div_eq_of_lt ha, zero_add]

/-! ### other readings of a face -/

theorem bez_one (p : ℕ) (c : ℕ → K) (x : K) : bez [p] c [x] = ∑ i ∈ range (p + 1), bernstein p i 0 1 x * c i := by
  unfold bez
  simp only [List.map_cons, List.map_nil, List.prod_singleton, List.zipWith_cons_cons, List.zipWith_nil_left]
  refine sum_congr rfl fun i hi => ?_
  rw [mem_range] at hi
  simp [basisProduct, digits, Nat.mod_eq_of_lt hi]

theorem bez_two (p q : ℕ) (c : ℕ → K) (x y : K) :
    bez [p, q] c [x, y] = ∑ j ∈ range (q + 1), ∑ i ∈ range (p + 1), bernstein p i 0 1 x * (bernstein q j 0 1 y * c (i + (p + 1) * j)) := by
  unfold bez
  simp only [List.map_cons, List.map_nil, List.zipWith_cons_cons, List.zipWith_nil_left]
  rw [List.prod_cons, List.prod_singleton, KnotInsertion.sum_range_mul]
  refine sum_congr rfl fun j hj => sum_congr rfl fun i hi => ?_
  rw [mem_range] at hi hj
  simp only [basisProduct, digits, List.zipWith_cons_cons, List.zipWith_nil_left, List.prod_cons, List.prod_nil, mul_one]
  rw [Nat.add_mul_mod_self_left, Nat.mod_eq_of_lt hi, Nat.add_mul_div_left _ _ (by omega), Nat.div_eq_of_lt hi, zero_add, Nat.mod_eq_of_lt hj]
  ring

/-- the parameter, seen from the other end if asked for -/
def flip (r : Bool) (x : K) : K := if r then 1 - x else x

theorem flip_flip (r : Bool) (x : K) : flip r (flip r x) = x := by cases r <;> simp [flip]

theorem flip_mem (r : Bool) {x : K} (h : 0 ≤ x ∧ x ≤ 1) : 0 ≤ flip r x ∧ flip r x ≤ 1 := by
  cases r
  · exact h
  · constructor <;> simp only [flip, if_true] <;> linarith [h.1, h.2]

theorem sum_flip (r : Bool) (p : ℕ) (x : K) (f : ℕ → K) :
    ∑ i ∈ range (p + 1), bernstein p i 0 1 (flip r x) * f (if r then p + 1 - 1 - i else i) = ∑ i ∈ range (p + 1), bernstein p i 0 1 x * f i := by
  cases r
  · rfl
  · simp only [if_true, flip]
    rw [← sum_range_reflect (fun i => bernstein p i 0 1 x * f i) (p + 1)]
    refine sum_congr rfl fun i hi => ?_
    rw [mem_range] at hi
    have h := Mirror.bernstein_mirror p (p + 1 - 1 - i) (by omega) x
    rw [show p - (p + 1 - 1 - i) = i by omega, show (0 : K) + 1 - x = 1 - x by ring] at h
    rw [h]

theorem turn_getD (a b : ℕ) (r q : Bool) (F : List (List K)) (i j : ℕ) (hi : i < a) (hj : j < b) :
    (turn a b false r q F).getD (i + a * j) [] = F.getD ((if r then a - 1 - i else i) + a * (if q then b - 1 - j else j)) [] := by
  unfold turn
  simp only [Bool.false_eq_true, if_false]
  rw [range_flatMap_range, getD_map_range _ _ _ (by nlinarith), Nat.add_mul_mod_self_left, Nat.mod_eq_of_lt hi, Nat.add_mul_div_left _ _ (by omega), Nat.div_eq_of_lt hi, zero_add]
  rfl

theorem turn_swap_getD (a b : ℕ) (r q : Bool) (F : List (List K)) (i j : ℕ) (hi : i < a) (hj : j < b) :
    (turn a b true r q F).getD (j + b * i) [] = F.getD ((if r then a - 1 - i else i) + a * (if q then b - 1 - j else j)) [] := by
  unfold turn
  simp only [if_true]
  rw [range_flatMap_range, getD_map_range _ _ _ (by nlinarith), Nat.add_mul_mod_self_left, Nat.mod_eq_of_lt hj, Nat.add_mul_div_left _ _ (by omega), Nat.div_eq_of_lt hj, zero_add]
  rfl

/-- coordinate `k` of the face with control points `F` -/
def faceValue (degs : List ℕ) (F : List (List K)) (w : List K) (k : ℕ) : K := bez degs (fun g => (F.getD g []).getD k 0) w

theorem value_turn_one (p : ℕ) (r : Bool) (F : List (List K)) (x : K) (k : ℕ) :
    faceValue [p] (turn (p + 1) 1 false r false F) [flip r x] k = faceValue [p] F [x] k := by
  unfold faceValue
  rw [bez_one, bez_one, ← sum_flip r p x (fun i => (F.getD i []).getD k 0)]
  refine sum_congr rfl fun i hi => ?_
  rw [mem_range] at hi
  have h := turn_getD (p + 1) 1 r false F i 0 hi (by omega)
  simp only [mul_zero, add_zero, Bool.false_eq_true, if_false] at h
  rw [h]

theorem value_turn (p q : ℕ) (r t : Bool) (F : List (List K)) (x y : K) (k : ℕ) :
    faceValue [p, q] (turn (p + 1) (q + 1) false r t F) [flip r x, flip t y] k = faceValue [p, q] F [x, y] k := by
  unfold faceValue
  rw [bez_two, bez_two]
  have h1 : ∀ j ∈ range (q + 1), ∑ i ∈ range (p + 1), bernstein p i 0 1 (flip r x) * (bernstein q j 0 1 (flip t y) * ((turn (p + 1) (q + 1) false r t F).getD (i + (p + 1) * j) []).getD k 0) =
      bernstein q j 0 1 (flip t y) * ∑ i ∈ range (p + 1), bernstein p i 0 1 x * (F.getD (i + (p + 1) * (if t then q + 1 - 1 - j else j)) []).getD k 0 := by
    intro j hj
    rw [← sum_flip r p x fun i => (F.getD (i + (p + 1) * (if t then q + 1 - 1 - j else j)) []).getD k 0, mul_sum]
    refine sum_congr rfl fun i hi => ?_
    rw [turn_getD _ _ _ _ _ _ _ (mem_range.1 hi) (mem_range.1 hj)]
    ring
  rw [sum_congr rfl h1, sum_flip t q y fun j => ∑ i ∈ range (p + 1), bernstein p i 0 1 x * (F.getD (i + (p + 1) * j) []).getD k 0]
  refine sum_congr rfl fun j _ => ?_
  rw [mul_sum]
  exact sum_congr rfl fun i _ => by ring

theorem value_turn_swap (p q : ℕ) (r t : Bool) (F : List (List K)) (x y : K) (k : ℕ) :
    faceValue [q, p] (turn (p + 1) (q + 1) true r t F) [flip t y, flip r x] k = faceValue [p, q] F [x, y] k := by
  rw [← value_turn p q r t F x y k]
  unfold faceValue
  rw [bez_two, bez_two, sum_comm]
  refine sum_congr rfl fun j hj => sum_congr rfl fun i hi => ?_
  rw [turn_getD _ _ _ _ _ _ _ (mem_range.1 hi) (mem_range.1 hj), turn_swap_getD _ _ _ _ _ _ _ (mem_range.1 hi) (mem_range.1 hj)]
  ring

/-- the points of two faces are the same -/
def SamePoints (degs degs' : List ℕ) (F F' : List (List K)) : Prop :=
  (∀ w, MicroGeometry.Spec.Cube degs.length w → ∃ w', MicroGeometry.Spec.Cube degs'.length w' ∧ ∀ k, faceValue degs' F' w' k = faceValue degs F w k) ∧
  (∀ w', MicroGeometry.Spec.Cube degs'.length w' → ∃ w, MicroGeometry.Spec.Cube degs.length w ∧ ∀ k, faceValue degs' F' w' k = faceValue degs F w k)

/-- A face has the same points, however it is read. -/
theorem readings_points {degs degs' : List ℕ} {F F' : List (List K)} (h : (degs'.map (· + 1), F') ∈ readings (degs.map (· + 1), F)) : SamePoints degs degs' F F' := by
  have inj : ∀ {l l' : List ℕ}, l.map (· + 1) = l'.map (· + 1) → l = l' := fun h => List.map_injective_iff.2 (fun a b h => Nat.succ.inj h) h
  have cube1 : ∀ {w : List K}, MicroGeometry.Spec.Cube 1 w → ∃ x, w = [x] ∧ 0 ≤ x ∧ x ≤ 1 := by
    rintro w ⟨h1, h2⟩
    obtain ⟨x, rfl⟩ := List.length_eq_one_iff.1 h1
    exact ⟨x, rfl, h2 x (by simp)⟩
  have cube2 : ∀ {w : List K}, MicroGeometry.Spec.Cube 2 w → ∃ x y, w = [x, y] ∧ (0 ≤ x ∧ x ≤ 1) ∧ 0 ≤ y ∧ y ≤ 1 := by
    rintro w ⟨h1, h2⟩
    obtain ⟨x, y, rfl⟩ := List.length_eq_two.1 h1
    exact ⟨x, y, rfl, h2 x (by simp), h2 y (by simp)⟩
  match degs, h with
  | [], h =>
    simp only [readings, List.map_nil, List.mem_singleton, Prod.mk.injEq, List.map_eq_nil_iff] at h
    obtain ⟨rfl, rfl⟩ := h
    exact ⟨fun w hw => ⟨w, hw, fun _ => rfl⟩, fun w hw => ⟨w, hw, fun _ => rfl⟩⟩
  | [p], h =>
    simp only [readings, List.map_cons, List.map_nil] at h
    obtain ⟨r, rfl, rfl⟩ : ∃ r, degs' = [p] ∧ F' = turn (p + 1) 1 false r false F := by
      have hd : degs'.map (· + 1) = [p].map (· + 1) → degs' = [p] := inj
      simp only [List.mem_cons, Prod.mk.injEq, List.not_mem_nil, or_false] at h
      rcases h with ⟨h1, h2⟩ | ⟨h1, h2⟩
      · exact ⟨false, hd h1, h2⟩
      · exact ⟨true, hd h1, h2⟩
    constructor
    · intro w hw
      obtain ⟨x, rfl, hx⟩ := cube1 hw
      exact ⟨[flip r x], ⟨rfl, by simpa using flip_mem r hx⟩, fun k => value_turn_one p r F x k⟩
    · intro w hw
      obtain ⟨x, rfl, hx⟩ := cube1 hw
      refine ⟨[flip r x], ⟨rfl, by simpa using flip_mem r hx⟩, fun k => ?_⟩
      rw [← value_turn_one p r F (flip r x) k, flip_flip]
  | [p, q], h =>
    simp only [readings, List.map_cons, List.map_nil] at h
    obtain ⟨s, r, t, h1, rfl⟩ : ∃ s r t : Bool, degs' = (if s then [q, p] else [p, q]) ∧ F' = turn (p + 1) (q + 1) s r t F := by
      simp only [List.mem_flatMap, List.mem_map] at h
      obtain ⟨s, -, r, -, h⟩ := h
      have hd : ∀ {t : Bool}, (degs'.map (· + 1), F') = (if s = true then [q + 1, p + 1] else [p + 1, q + 1], turn (p + 1) (q + 1) s r t F) →
          degs' = (if s then [q, p] else [p, q]) ∧ F' = turn (p + 1) (q + 1) s r t F := by
        intro t h
        obtain ⟨h1, h2⟩ := Prod.mk.inj h
        refine ⟨inj ?_, h2⟩
        rw [h1]
        cases s <;> rfl
      simp only [List.mem_cons, List.not_mem_nil, or_false] at h
      rcases h with h | h
      · exact ⟨s, r, false, hd h⟩
      · exact ⟨s, r, true, hd h⟩
    cases s
    · obtain rfl : degs' = [p, q] := h1
      constructor
      · intro w hw
        obtain ⟨x, y, rfl, hx, hy⟩ := cube2 hw
        exact ⟨[flip r x, flip t y], ⟨rfl, by simpa using ⟨flip_mem r hx, flip_mem t hy⟩⟩, fun k => value_turn p q r t F x y k⟩
      · intro w hw
        obtain ⟨x, y, rfl, hx, hy⟩ := cube2 hw
        refine ⟨[flip r x, flip t y], ⟨rfl, by simpa using ⟨flip_mem r hx, flip_mem t hy⟩⟩, fun k => ?_⟩
        rw [← value_turn p q r t F (flip r x) (flip t y) k, flip_flip, flip_flip]
    · obtain rfl : degs' = [q, p] := h1
      constructor
      · intro w hw
        obtain ⟨x, y, rfl, hx, hy⟩ := cube2 hw
        exact ⟨[flip t y, flip r x], ⟨rfl, by simpa using ⟨flip_mem t hy, flip_mem r hx⟩⟩, fun k => value_turn_swap p q r t F x y k⟩
      · intro w hw
        obtain ⟨y, x, rfl, hy, hx⟩ := cube2 hw
        refine ⟨[flip r x, flip t y], ⟨rfl, by simpa using ⟨flip_mem r hx, flip_mem t hy⟩⟩, fun k => ?_⟩
        rw [← value_turn_swap p q r t F (flip r x) (flip t y) k, flip_flip, flip_flip]
  | _ :: _ :: _ :: _, h => simp [readings] at h

theorem flip_half (r : Bool) : flip r (1 / 2 : K) = 1 / 2 := by
  cases r
  · rfl
  · unfold flip; norm_num

/-- A face has the same centre, however it is read. -/
theorem readings_centre {degs degs' : List ℕ} {F F' : List (List K)} (h : (degs'.map (· + 1), F') ∈ readings (degs.map (· + 1), F)) (k : ℕ) :
    faceValue degs' F' (List.replicate degs'.length (1 / 2)) k = faceValue degs F (List.replicate degs.length (1 / 2)) k := by
  have inj : ∀ {l l' : List ℕ}, l.map (· + 1) = l'.map (· + 1) → l = l' := fun h => List.map_injective_iff.2 (fun a b h => Nat.succ.inj h) h
  match degs, h with
  | [], h =>
    simp only [readings, List.map_nil, List.mem_singleton, Prod.mk.injEq, List.map_eq_nil_iff] at h
    obtain ⟨rfl, rfl⟩ := h
    rfl
  | [p], h =>
    simp only [readings, List.map_cons, List.map_nil] at h
    obtain ⟨r, rfl, rfl⟩ : ∃ r, degs' = [p] ∧ F' = turn (p + 1) 1 false r false F := by
      have hd : degs'.map (· + 1) = [p].map (· + 1) → degs' = [p] := inj
      simp only [List.mem_cons, Prod.mk.injEq, List.not_mem_nil, or_false] at h
      rcases h with ⟨h1, h2⟩ | ⟨h1, h2⟩
      · exact ⟨false, hd h1, h2⟩
      · exact ⟨true, hd h1, h2⟩
    have := value_turn_one p r F (1 / 2) k
    rwa [flip_half] at this
  | [p, q], h =>
    simp only [readings, List.map_cons, List.map_nil] at h
    obtain ⟨s, r, t, h1, rfl⟩ : ∃ s r t : Bool, degs' = (if s then [q, p] else [p, q]) ∧ F' = turn (p + 1) (q + 1) s r t F := by
      simp only [List.mem_flatMap, List.mem_map] at h
      obtain ⟨s, -, r, -, h⟩ := h
      have hd : ∀ {t : Bool}, (degs'.map (· + 1), F') = (if s = true then [q + 1, p + 1] else [p + 1, q + 1], turn (p + 1) (q + 1) s r t F) →
          degs' = (if s then [q, p] else [p, q]) ∧ F' = turn (p + 1) (q + 1) s r t F := by
        intro t h
        obtain ⟨h1, h2⟩ := Prod.mk.inj h
        refine ⟨inj ?_, h2⟩
        rw [h1]
        cases s <;> rfl
      simp only [List.mem_cons, List.not_mem_nil, or_false] at h
      rcases h with h | h
      · exact ⟨s, r, false, hd h⟩
      · exact ⟨s, r, true, hd h⟩
    cases s
    · obtain rfl : degs' = [p, q] := h1
      have := value_turn p q r t F (1 / 2) (1 / 2) k
      rwa [flip_half, flip_half] at this
    · obtain rfl : degs' = [q, p] := h1
      have := value_turn_swap p q r t F (1 / 2) (1 / 2) k
      rwa [flip_half, flip_half] at this
  | _ :: _ :: _ :: _, h => simp [readings] at h

end Splinepy.BezierFace
