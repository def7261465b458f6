import Verif.Props.Split
import Verif.Lemma.InsertSpline

/-!
C45 for Bezier splines with any number of directions, rational or not: what `split` returns, as points of the pieces, and that splitting at one location exists (subdivision by de Casteljau).
-/
set_option linter.unusedSectionVars false
namespace Splinepy.Split
open Splinepy.Spec Splinepy.InsertSpline Finset
open Splinepy.Index (Spline)

variable {K : Type} [Field K] [LinearOrder K] [IsStrictOrderedRing K]

/-! ### Specification -/

/-- a valid Bezier spline, rational or not, whose control points have the same number of coordinates -/
structure Spec.BezierSpline (s : Spline K (List K)) : Prop where
  valid : ValidSpline s
  bezier : s.knotVectors = none
  rows : ∀ P ∈ s.controlPoints, P.length = (s.controlPoints.headD []).length

/-- the same parameter with `x` in direction `axis` replaced by `f x` -/
def Spec.along (axis : ℕ) (f : K → K) (u : List K) : List K := u.set axis (f (u.getD axis 0))

/-- `SplitAtPosition` of bezman in direction `axis`: both halves are Bezier splines of the same degrees, rational if the spline is, and their points are those of the spline left and right of the location -/
def Spec.Halves (axis : ℕ) (split : Spline K (List K) → K → Spline K (List K) × Spline K (List K)) : Prop :=
  ∀ s t, Spec.BezierSpline s → axis < s.degrees.length → 0 ≤ t → t ≤ 1 →
    (∀ r, r = (split s t).1 ∨ r = (split s t).2 → Spec.BezierSpline r ∧ r.degrees = s.degrees ∧ r.weights.isSome = s.weights.isSome) ∧
    ∀ u, u.length = s.degrees.length → ∀ k, point (split s t).1 u k = point s (Spec.along axis (fun x => t * x) u) k ∧
      point (split s t).2 u k = point s (Spec.along axis (fun x => t + (1 - t) * x) u) k

/-! ### The loop, for splits that are right on some splines -/

section
variable {S P : Type}

/-- as `Spec.SplitsExactly`, for the splines with `Q` and locations in the unit interval -/
def SplitsOn (Q : S → Prop) (split : S → K → S × S) (eval : S → K → P) : Prop :=
  ∀ s t, Q s → 0 ≤ t → t ≤ 1 → Q (split s t).1 ∧ Q (split s t).2 ∧ ∀ x, eval (split s t).1 x = eval s (t * x) ∧ eval (split s t).2 x = eval s (t + (1 - t) * x)

theorem splitLoop_on {Q : S → Prop} {split : S → K → S × S} {eval : S → K → P} (h : SplitsOn Q split eval) (s : S) (ls : List K) (prev : K) (rest : S) (hq : Q rest)
    (hr : Spec.IsRestriction eval s rest prev 1) (hs : (prev :: ls).Pairwise (· ≤ ·)) (h1 : ∀ l ∈ (prev :: ls).dropLast, l < 1) (hle : ∀ l ∈ ls, l ≤ 1) :
    ∃ ps, splitLoop split prev rest ls = some ps ∧ Spec.ArePieces eval s prev ls ps ∧ ∀ p ∈ ps, Q p := by
  induction ls generalizing prev rest with
  | nil => exact ⟨[rest], rfl, ⟨rest, rfl, hr⟩, by simpa using hq⟩
  | cons l ls ih =>
    have hp : prev < 1 := h1 prev (by simp)
    have hne : 1 - prev ≠ 0 := by linarith
    have hpos : 0 < 1 - prev := by linarith
    have hpl : prev ≤ l := (List.pairwise_cons.1 hs).1 l (by simp)
    obtain ⟨q1, q2, hx⟩ := h rest ((l - prev) / (1 - prev)) hq (div_nonneg (by linarith) hpos.le) ((div_le_one hpos).2 (by linarith [hle l (by simp)]))
    have hrest : Spec.IsRestriction eval s (split rest ((l - prev) / (1 - prev))).2 l 1 := by
      intro x
      rw [(hx _).2, hr]
      congr 1
      field_simp
      ring
    obtain ⟨ps, e1, e2, e3⟩ := ih l _ q2 hrest (List.pairwise_cons.1 hs).2 (fun l' hl' => h1 l' (by rw [List.dropLast_cons_of_ne_nil (by simp)]; exact List.mem_cons_of_mem _ hl'))
      fun l' hl' => hle l' (by simp [hl'])
    refine ⟨(split rest ((l - prev) / (1 - prev))).1 :: ps, ?_, ⟨_, ps, rfl, ?_, e2⟩, ?_⟩
    · simp only [splitLoop, hne, if_false, e1, Option.map_some]
    · intro x
      rw [(hx _).1, hr]
      congr 1
      field_simp
    · intro p hp
      rcases List.mem_cons.1 hp with rfl | hp
      · exact q1
      · exact e3 p hp

theorem split_on {Q : S → Prop} {split : S → K → S × S} {eval : S → K → P} (h : SplitsOn Q split eval) (s : S) (hq : Q s) (locations : List K)
    (hne : locations ≠ []) (h01 : ∀ l ∈ locations, 0 ≤ l ∧ l ≤ 1) (h1 : ∀ l ∈ (locations.insertionSort (· ≤ ·)).dropLast, l < 1) :
    ∃ pieces, splitAt split s locations = some pieces ∧ Spec.ArePieces eval s 0 (locations.insertionSort (· ≤ ·)) pieces ∧ ∀ p ∈ pieces, Q p := by
  unfold splitAt
  rw [if_neg hne, if_neg (by
    rw [List.any_eq_true]
    rintro ⟨l, hl, h⟩
    simp only [Bool.or_eq_true, decide_eq_true_eq] at h
    have := h01 l hl
    rcases h with h | h <;> linarith)]
  have hs := List.pairwise_insertionSort (· ≤ ·) locations
  have hm : ∀ l ∈ locations.insertionSort (· ≤ ·), 0 ≤ l ∧ l ≤ 1 := fun l hl => h01 l ((List.perm_insertionSort _ _).mem_iff.1 hl)
  have hlen := List.length_insertionSort (· ≤ ·) locations
  cases hsort : locations.insertionSort (· ≤ ·) with
  | nil =>
    rw [hsort] at hlen
    exact absurd (List.length_eq_zero_iff.1 hlen.symm) hne
  | cons l ls =>
    rw [hsort] at hs h1 hlen hm
    obtain ⟨q1, q2, hx⟩ := h s l hq (hm l (by simp)).1 (hm l (by simp)).2
    obtain ⟨ps, e1, e2, e3⟩ := splitLoop_on h s ls l _ q2 (fun x => (hx x).2) hs h1 fun l' hl' => (hm l' (by simp [hl'])).2
    refine ⟨(split s l).1 :: ps, by simp only [e1, Option.map_some], ⟨_, ps, rfl, ?_, e2⟩, ?_⟩
    · intro x
      rw [(hx x).1]
      congr 1
      ring
    · intro p hp
      rcases List.mem_cons.1 hp with rfl | hp
      · exact q1
      · exact e3 p hp

theorem arePieces_getD {eval : S → K → P} {s : S} (a : K) (ls : List K) (ps : List S) (h : Spec.ArePieces eval s a ls ps) :
    ps.length = ls.length + 1 ∧ ∀ (i : ℕ) (p : S), ps[i]? = some p → Spec.IsRestriction eval s p ((a :: ls ++ [1]).getD i 0) ((a :: ls ++ [1]).getD (i + 1) 0) := by
  induction ls generalizing a ps with
  | nil =>
    obtain ⟨p, rfl, h⟩ := h
    refine ⟨rfl, fun i q hq => ?_⟩
    cases i with
    | zero => simp only [List.getElem?_cons_zero, Option.some.injEq] at hq; subst hq; simpa using h
    | succ i => simp at hq
  | cons b ls ih =>
    obtain ⟨p, ps, rfl, h1, h2⟩ := h
    obtain ⟨i1, i2⟩ := ih b ps h2
    refine ⟨by simp [i1], fun i q hq => ?_⟩
    cases i with
    | zero => simp only [List.getElem?_cons_zero, Option.some.injEq] at hq; subst hq; simpa using h1
    | succ i => simpa using i2 i q (by simpa using hq)

end

/-! ### Subdivision -/

theorem bernstein_scale (n j : ℕ) (t x : K) : bernstein n j 0 1 (t * x) = ∑ i ∈ range (n + 1), bernstein i j 0 1 t * bernstein n i 0 1 x := by
  unfold bernstein
  simp only [sub_zero, div_one]
  rcases Nat.lt_or_ge n j with h | h
  · rw [Nat.choose_eq_zero_of_lt h, Finset.sum_eq_zero]
    · simp
    · intro i hi
      rw [mem_range] at hi
      rw [Nat.choose_eq_zero_of_lt (by omega)]
      simp
  · obtain ⟨m, rfl⟩ := Nat.exists_eq_add_of_le h
    rw [show j + m + 1 = j + (m + 1) by omega, Finset.sum_range_add, Finset.sum_eq_zero, zero_add]
    · have e : (1 - t * x) ^ m = ∑ a ∈ range (m + 1), (x * (1 - t)) ^ a * (1 - x) ^ (m - a) * (m.choose a : K) := by
        rw [← add_pow]
        congr 1
        ring
      rw [show j + m - j = m by omega, e, Finset.mul_sum]
      refine sum_congr rfl fun a ha => ?_
      rw [mem_range] at ha
      have hc : ((j + m).choose (j + a) : K) * ((j + a).choose j : K) = ((j + m).choose j : K) * (m.choose a : K) := by
        have := Nat.choose_mul (n := j + m) (k := j + a) (s := j) (by omega)
        rw [show j + m - j = m by omega, show j + a - j = a by omega] at this
        exact_mod_cast this
      rw [show j + a - j = a by omega, show j + m - (j + a) = m - a by omega, pow_add x j a]
      calc _ = (((j + m).choose j : K) * (m.choose a : K)) * (t ^ j * x ^ j * x ^ a * (1 - t) ^ a * (1 - x) ^ (m - a)) := by rw [mul_pow, mul_pow]; ring
        _ = _ := by rw [← hc]; ring
    · intro i hi
      rw [mem_range] at hi
      rw [Nat.choose_eq_zero_of_lt hi]
      simp

theorem bernstein_mirror (n j : ℕ) (h : j ≤ n) (y : K) : bernstein n j 0 1 y = bernstein n (n - j) 0 1 (1 - y) := by
  unfold bernstein
  simp only [sub_zero, div_one]
  rw [Nat.choose_symm h, show n - (n - j) = j by omega, show 1 - (1 - y) = y by ring]
  ring

theorem bernstein_rest (n j : ℕ) (h : j ≤ n) (t x : K) :
    bernstein n j 0 1 (t + (1 - t) * x) = ∑ i ∈ range (n + 1), bernstein (n - i) (n - j) 0 1 (1 - t) * bernstein n i 0 1 x := by
  rw [bernstein_mirror n j h, show 1 - (t + (1 - t) * x) = (1 - t) * (1 - x) by ring, bernstein_scale, ← Finset.sum_range_reflect]
  refine sum_congr rfl fun i hi => ?_
  rw [mem_range] at hi
  rw [show n + 1 - 1 - i = n - i by omega, bernstein_mirror n i (by omega) x]

theorem row_sum (i p : ℕ) (h : i ≤ p) (t : K) : ∑ j ∈ range (p + 1), bernstein i j 0 1 t = 1 := by
  refine Eq.trans (Eq.symm (Finset.sum_subset (fun a ha => ?_) fun a _ ha => ?_)) (bernstein_sum i t)
  · rw [mem_range] at ha ⊢; omega
  · rw [mem_range] at ha
    unfold bernstein
    rw [Nat.choose_eq_zero_of_lt (by omega)]
    simp

theorem row_sum_rest (i p : ℕ) (t : K) : ∑ j ∈ range (p + 1), bernstein (p - i) (p - j) 0 1 (1 - t) = 1 := by
  refine Eq.trans ?_ (row_sum (p - i) p (by omega) (1 - t))
  rw [← Finset.sum_range_reflect]
  refine sum_congr rfl fun j hj => ?_
  rw [mem_range] at hj
  rw [show p + 1 - 1 - j = p - j by omega, show p - (p - j) = j by omega]

/-- the Bezier spline whose homogeneous control points are combinations, with the matrix `M`, of those along the direction `axis` -/
def combine (axis : ℕ) (M : ℕ → ℕ → K) (s : Spline K (List K)) : Spline K (List K) :=
  let p := s.degrees.getD axis 0
  let R := refineNet ((s.degrees.take axis).map (· + 1)).prod (p + 1) (p + 1) M
  let N := (s.degrees.map (· + 1)).prod
  let dim := (s.controlPoints.headD []).length
  ⟨s.degrees, none, s.weights.map fun ws => (List.range N).map fun g => R (fun i => ws.getD i 0) g,
    match s.weights with
    | none => (List.range N).map fun g => (List.range dim).map fun k => R (fun i => (s.controlPoints.getD i []).getD k 0) g
    | some ws => (List.range N).map fun g => (List.range dim).map fun k =>
        R (fun i => ws.getD i 0 * (s.controlPoints.getD i []).getD k 0) g / R (fun i => ws.getD i 0) g⟩

theorem combine_spec (axis : ℕ) (M : ℕ → ℕ → K) (s : Spline K (List K)) (hs : Spec.BezierSpline s) (hax : axis < s.degrees.length)
    (hM : ∀ i ≤ s.degrees.getD axis 0, (∀ j, 0 ≤ M i j) ∧ ∑ j ∈ range (s.degrees.getD axis 0 + 1), M i j = 1) :
    Spec.BezierSpline (combine axis M s) ∧ (combine axis M s).degrees = s.degrees ∧ (combine axis M s).weights.isSome = s.weights.isSome ∧
      ∀ f : K → K, (∀ x, ∀ j ≤ s.degrees.getD axis 0, bernstein (s.degrees.getD axis 0) j 0 1 (f x) = ∑ i ∈ range (s.degrees.getD axis 0 + 1), M i j * bernstein (s.degrees.getD axis 0) i 0 1 x) →
        ∀ u, u.length = s.degrees.length → ∀ k, point (combine axis M s) u k = point s (Spec.along axis f u) k := by
  obtain ⟨hv, hb, hrows⟩ := hs
  obtain ⟨p, hp⟩ : ∃ p, s.degrees.getD axis 0 = p := ⟨_, rfl⟩
  obtain ⟨d1, d2, hd, hd1⟩ : ∃ d1 d2, s.degrees = d1 ++ p :: d2 ∧ d1.length = axis :=
    ⟨s.degrees.take axis, s.degrees.drop (axis + 1), by rw [← hp, List.getD_eq_getElem _ _ hax, ← List.drop_eq_getElem_cons, List.take_append_drop], by simp; omega⟩
  have htake : s.degrees.take axis = d1 := by rw [hd, ← hd1]; simp
  rw [hp] at hM ⊢
  obtain ⟨l1, hl1⟩ : ∃ l1, d1.map (· + 1) = l1 := ⟨_, rfl⟩
  obtain ⟨l2, hl2⟩ : ∃ l2, d2.map (· + 1) = l2 := ⟨_, rfl⟩
  let D1 : List (Direction K) := d1.map fun d => ⟨d, none⟩
  let D2 : List (Direction K) := d2.map fun d => ⟨d, none⟩
  have hmap : s.degrees.map (· + 1) = l1 ++ (p + 1) :: l2 := by rw [hd, List.map_append, List.map_cons, hl1, hl2]
  obtain ⟨N, hN⟩ : ∃ N, (l1 ++ (p + 1) :: l2).prod = N := ⟨_, rfl⟩
  obtain ⟨dim, hdim⟩ : ∃ n, (s.controlPoints.headD []).length = n := ⟨_, rfl⟩
  rw [hdim] at hrows
  obtain ⟨R, hR⟩ : ∃ R, refineNet l1.prod (p + 1) (p + 1) M = R := ⟨_, rfl⟩
  have hw' : (combine axis M s).weights = s.weights.map fun ws => (List.range N).map fun g => R (fun i => ws.getD i 0) g := by
    simp only [combine, hp, htake, hl1, hmap, hN, hR]
  have hc' : (combine axis M s).controlPoints = match s.weights with
    | none => (List.range N).map fun g => (List.range dim).map fun k => R (fun i => (s.controlPoints.getD i []).getD k 0) g
    | some ws => (List.range N).map fun g => (List.range dim).map fun k =>
        R (fun i => ws.getD i 0 * (s.controlPoints.getD i []).getD k 0) g / R (fun i => ws.getD i 0) g := by
    simp only [combine, hp, htake, hl1, hmap, hN, hR, hdim]
  have hdirs : ∀ r : Spline K (List K), r.degrees = s.degrees → r.knotVectors = none → directions r = D1 ++ ⟨p, none⟩ :: D2 := by
    intro r h1 h2
    unfold directions
    rw [h2, h1, hd]
    simp [D1, D2]
  have hnet : ∀ r : Spline K (List K), r.degrees = s.degrees → r.knotVectors = none → netSize r = l1 ++ (p + 1) :: l2 := by
    intro r h1 h2
    unfold netSize
    rw [hdirs r h1 h2, ← hl1, ← hl2]
    simp [D1, D2, Direction.size, Function.comp_def]
  have hcl : s.controlPoints.length = N := by rw [hv.net, hnet s rfl hb, hN]
  have hP1 : 0 < l1.prod := by
    rw [← hl1]
    refine prod_pos_of_forall fun r hr => ?_
    obtain ⟨d, -, rfl⟩ := List.mem_map.1 hr
    omega
  have hcpl : (combine axis M s).controlPoints.length = N := by
    rw [hc']
    cases s.weights <;> simp
  have hrows' : ∀ P ∈ (combine axis M s).controlPoints, P.length = dim := by
    intro P hP
    rw [hc'] at hP
    cases hw : s.weights with
    | none =>
      rw [hw] at hP
      obtain ⟨g, _, rfl⟩ := List.mem_map.1 hP
      simp
    | some ws =>
      rw [hw] at hP
      obtain ⟨g, _, rfl⟩ := List.mem_map.1 hP
      simp
  have hwpos : ∀ ws, s.weights = some ws → ∀ g < N, 0 < R (fun i => ws.getD i 0) g := by
    intro ws hw g hg
    obtain ⟨hwl, hwp⟩ := hv.weights ws hw
    have hgm : g / l1.prod % (p + 1) < p + 1 := Nat.mod_lt _ (by omega)
    obtain ⟨m1, m2⟩ := hM _ (Nat.le_of_lt_succ hgm)
    have hc : g / l1.prod / (p + 1) < l2.prod := by
      have : g < l1.prod * ((p + 1) * l2.prod) := by rw [← hN] at hg; simpa [List.prod_append] using hg
      rw [Nat.div_div_eq_div_mul]
      rw [← Nat.mul_assoc] at this
      exact Nat.div_lt_of_lt_mul this
    have hidx : ∀ j < p + 1, g % l1.prod + l1.prod * (j + (p + 1) * (g / l1.prod / (p + 1))) < ws.length := by
      intro j hj
      rw [hwl, hcl, ← hN, List.prod_append, List.prod_cons]
      have h1 : g % l1.prod < l1.prod := Nat.mod_lt _ hP1
      have h2 : j + (p + 1) * (g / l1.prod / (p + 1)) + 1 ≤ (p + 1) * l2.prod := by
        have h3 := Nat.mul_le_mul_left (p + 1) (Nat.succ_le_of_lt hc)
        have h4 : (p + 1) * (g / l1.prod / (p + 1)).succ = (p + 1) * (g / l1.prod / (p + 1)) + (p + 1) := Nat.mul_succ _ _
        omega
      have h3 := Nat.mul_le_mul_left l1.prod h2
      have h4 : l1.prod * (j + (p + 1) * (g / l1.prod / (p + 1)) + 1) = l1.prod * (j + (p + 1) * (g / l1.prod / (p + 1))) + l1.prod := by ring
      omega
    rw [← hR]
    simp only [refineNet]
    have hnn : ∀ j ∈ range (p + 1), 0 ≤ M (g / l1.prod % (p + 1)) j * ws.getD (g % l1.prod + l1.prod * (j + (p + 1) * (g / l1.prod / (p + 1)))) 0 := by
      intro j hj
      rw [mem_range] at hj
      rw [List.getD_eq_getElem _ _ (hidx j hj)]
      exact mul_nonneg (m1 j) (hwp _ (List.getElem_mem _)).le
    refine lt_of_le_of_ne (Finset.sum_nonneg hnn) fun h0 => ?_
    rw [eq_comm, Finset.sum_eq_zero_iff_of_nonneg hnn] at h0
    have : ∑ j ∈ range (p + 1), M (g / l1.prod % (p + 1)) j = 0 := by
      refine Finset.sum_eq_zero fun j hj => ?_
      have h1 := h0 j hj
      rw [mem_range] at hj
      rw [List.getD_eq_getElem _ _ (hidx j hj)] at h1
      exact (mul_eq_zero.1 h1).resolve_right (hwp _ (List.getElem_mem _)).ne'
    rw [m2] at this
    exact one_ne_zero this
  have hvalid : ValidSpline (combine axis M s) := by
    refine ⟨?_, ?_, ?_, ?_⟩
    · intro kvs h
      cases h
    · intro d hdm kv hkv
      rw [hdirs (combine axis M s) rfl rfl] at hdm
      exact absurd hkv (by
        rcases List.mem_append.1 hdm with h | h
        · obtain ⟨e, -, rfl⟩ := List.mem_map.1 h; simp
        · rcases List.mem_cons.1 h with rfl | h
          · simp
          · obtain ⟨e, -, rfl⟩ := List.mem_map.1 h; simp)
    · rw [hnet (combine axis M s) rfl rfl, hN, hcpl]
    · intro ws' hws'
      rw [hw', Option.map_eq_some_iff] at hws'
      obtain ⟨ws, hw, rfl⟩ := hws'
      refine ⟨by simp [hcpl], fun w hwm => ?_⟩
      obtain ⟨g, hg, rfl⟩ := List.mem_map.1 hwm
      rw [List.mem_range] at hg
      exact hwpos ws hw g hg
  have hdim' : ((combine axis M s).controlPoints.headD []).length = dim := by
    have hpos : 0 < N := by
      rw [← hN, ← hmap]
      refine prod_pos_of_forall fun r hr => ?_
      obtain ⟨d, -, rfl⟩ := List.mem_map.1 hr
      omega
    cases hcc : (combine axis M s).controlPoints with
    | nil => rw [hcc] at hcpl; simp at hcpl; omega
    | cons P l => exact hrows' P (by rw [hcc]; simp)
  refine ⟨⟨hvalid, rfl, by rw [hdim']; exact hrows'⟩, rfl, by rw [hw', Option.isSome_map], fun f hf u hul k => ?_⟩
  have hau : axis < u.length := by omega
  obtain ⟨u1, x, u2, rfl, hu1⟩ : ∃ u1 x u2, u = u1 ++ x :: u2 ∧ u1.length = axis :=
    ⟨u.take axis, u[axis], u.drop (axis + 1), by rw [← List.drop_eq_getElem_cons, List.take_append_drop], by simp; omega⟩
  have hal : Spec.along axis f (u1 ++ x :: u2) = u1 ++ f x :: u2 := by
    unfold Spec.along
    rw [← hu1]
    simp [List.set_append, List.getD_eq_getElem?_getD]
  rw [hal]
  let B1 : List (ℕ → K) := List.zipWith (fun d x j => Direction.basis d x j) D1 u1
  let B2 : List (ℕ → K) := List.zipWith (fun d x j => Direction.basis d x j) D2 u2
  have hbv : ∀ r : Spline K (List K), r.degrees = s.degrees → r.knotVectors = none → ∀ y, basisValues r (u1 ++ y :: u2) = B1 ++ (fun j => bernstein p j 0 1 y) :: B2 := by
    intro r h1 h2 y
    unfold basisValues
    rw [hdirs r h1 h2, List.zipWith_append (by simp [D1]; omega)]
    rfl
  have hB1 : B1.length = l1.length := by rw [← hl1]; simp [B1, D1, hu1, hd1]
  have key : ∀ F : ℕ → K, tensorEval (basisValues (combine axis M s) (u1 ++ x :: u2)) (netSize (combine axis M s)) ((List.range N).map (R F)) =
      tensorEval (basisValues s (u1 ++ f x :: u2)) (netSize s) ((List.range N).map F) := by
    intro F
    rw [tensorEval_eq_sum, tensorEval_eq_sum, hbv s rfl hb, hbv (combine axis M s) rfl rfl, hnet s rfl hb, hnet (combine axis M s) rfl rfl, hN]
    have e1 : ∀ (b : List (ℕ → K)) (G : ℕ → K), ∀ g ∈ range N, basisProduct b (digits (l1 ++ (p + 1) :: l2) g) * ((List.range N).map G).getD g 0 =
        basisProduct b (digits (l1 ++ (p + 1) :: l2) g) * G g := by
      intro b G g hg
      rw [mem_range] at hg
      rw [List.getD_eq_getElem _ _ (by simpa using hg), List.getElem_map, List.getElem_range]
    rw [Finset.sum_congr rfl (e1 _ F), Finset.sum_congr rfl (e1 _ (R F)), ← hN, ← hR,
      tensor_refine B1 B2 _ (fun j => bernstein p j 0 1 x) l1 l2 _ (p + 1) M hB1 fun j hj => hf x j (by omega)]
  have hrow : ∀ i, dim ≤ k → (s.controlPoints.getD i []).getD k 0 = 0 := by
    intro i hk
    rcases Nat.lt_or_ge i s.controlPoints.length with hi | hi
    · rw [List.getD_eq_getElem s.controlPoints _ hi, List.getD_eq_default _ _ (by rw [hrows _ (List.getElem_mem hi)]; exact hk)]
    · rw [List.getD_eq_default s.controlPoints _ hi]; rfl
  have hNs : (netSize s).prod = N := by rw [hnet s rfl hb, hN]
  have hNc : (netSize (combine axis M s)).prod = N := by rw [hnet (combine axis M s) rfl rfl, hN]
  unfold point value
  cases hw : s.weights with
  | none =>
    rw [hw] at hw' hc'
    simp only [Option.map_none] at hw' hc'
    simp only [hw', hNs, hNc]
    rw [← key, hc']
    congr 1
    refine List.map_congr_left fun g hg => ?_
    rw [List.mem_range] at hg
    rw [List.getD_eq_getElem (List.map _ (List.range N)) _ (by simpa using hg), List.getElem_map, List.getElem_range]
    rcases Nat.lt_or_ge k dim with hk | hk
    · rw [List.getD_eq_getElem _ _ (by simpa using hk), List.getElem_map, List.getElem_range]
    · rw [List.getD_eq_default _ _ (by simpa using hk), ← hR]
      simp only [refineNet, hrow _ hk, mul_zero, Finset.sum_const_zero]
  | some ws =>
    obtain ⟨hwl, hwp⟩ := hv.weights ws hw
    rw [hw] at hw' hc'
    simp only [Option.map_some] at hw' hc'
    simp only [hw', hNs, hNc]
    congr 1
    · rw [← key, hc']
      congr 1
      refine List.map_congr_left fun g hg => ?_
      rw [List.mem_range] at hg
      rw [List.getD_eq_getElem (List.map _ (List.range N)) _ (by simpa using hg), List.getElem_map, List.getElem_range,
        List.getD_eq_getElem (List.map (fun g => (List.range dim).map _) (List.range N)) _ (by simpa using hg), List.getElem_map, List.getElem_range]
      rcases Nat.lt_or_ge k dim with hk | hk
      · rw [List.getD_eq_getElem _ _ (by simpa using hk), List.getElem_map, List.getElem_range, mul_div_cancel₀ _ (hwpos ws hw g hg).ne']
      · rw [List.getD_eq_default _ _ (by simpa using hk), ← hR]
        simp only [refineNet, hrow _ hk, mul_zero, Finset.sum_const_zero]
    · rw [key]
      congr 1
      apply List.ext_getElem
      · rw [List.length_map, List.length_range, hwl, hcl]
      · intro i h1 h2
        rw [List.getElem_map, List.getElem_range, List.getD_eq_getElem _ _ h2]

/-- subdivision by de Casteljau in direction `axis` -/
def casteljau (axis : ℕ) (s : Spline K (List K)) (t : K) : Spline K (List K) × Spline K (List K) :=
  let p := s.degrees.getD axis 0
  (combine axis (fun i j => bernstein i j 0 1 t) s, combine axis (fun i j => bernstein (p - i) (p - j) 0 1 (1 - t)) s)

/-! ### Results -/

/-- Splitting at one location exists, for every direction: subdivision meets the contract of bezman. -/
theorem casteljau_halves (axis : ℕ) : Spec.Halves axis (casteljau (K := K) axis) := by
  intro s t hs hax h0 h1
  obtain ⟨a1, a2, a3, a4⟩ := combine_spec axis (fun i j => bernstein i j 0 1 t) s hs hax fun i hi => ⟨fun j => bernstein_nonneg i j h0 h1, row_sum i _ hi t⟩
  obtain ⟨b1, b2, b3, b4⟩ := combine_spec axis (fun i j => bernstein (s.degrees.getD axis 0 - i) (s.degrees.getD axis 0 - j) 0 1 (1 - t)) s hs hax fun i _ =>
    ⟨fun j => bernstein_nonneg _ _ (by linarith) (by linarith), row_sum_rest i _ t⟩
  refine ⟨?_, fun u hu k => ⟨?_, ?_⟩⟩
  · rintro r (rfl | rfl)
    · exact ⟨a1, a2, a3⟩
    · exact ⟨b1, b2, b3⟩
  · exact a4 (fun x => t * x) (fun x j _ => bernstein_scale _ j t x) u hu k
  · exact b4 (fun x => t + (1 - t) * x) (fun x j hj => bernstein_rest _ j hj t x) u hu k

/-- C45 for Bezier splines of any number of directions, rational or not: for locations in the unit interval, in any order, at most one of which is one, `split` returns one more piece than there are
locations. Piece `i` is a Bezier spline of the same degrees, rational if the spline is, and its points are the points of the spline between the sorted locations `i` and `i + 1` (from 0, up to 1), scaled
to the unit interval in the direction of the split, at the same parameters otherwise. -/
theorem split_splines_partial {axis : ℕ} {split : Spline K (List K) → K → Spline K (List K) × Spline K (List K)} (h : Spec.Halves axis split) (s : Spline K (List K)) (hs : Spec.BezierSpline s)
    (hax : axis < s.degrees.length) (locations : List K) (hne : locations ≠ []) (h01 : ∀ l ∈ locations, 0 ≤ l ∧ l ≤ 1) (h1 : ∀ l ∈ (locations.insertionSort (· ≤ ·)).dropLast, l < 1) :
    ∃ pieces, splitAt split s locations = some pieces ∧ pieces.length = locations.length + 1 ∧
      ∀ (i : ℕ) (r : Spline K (List K)), pieces[i]? = some r → Spec.BezierSpline r ∧ r.degrees = s.degrees ∧ r.weights.isSome = s.weights.isSome ∧
        ∀ u, u.length = s.degrees.length → ∀ k, point r u k = point s (Spec.along axis (fun x =>
          (0 :: locations.insertionSort (· ≤ ·) ++ [1]).getD i 0 + ((0 :: locations.insertionSort (· ≤ ·) ++ [1]).getD (i + 1) 0 - (0 :: locations.insertionSort (· ≤ ·) ++ [1]).getD i 0) * x) u) k := by
  let Q : Spline K (List K) → Prop := fun r => Spec.BezierSpline r ∧ r.degrees = s.degrees ∧ r.weights.isSome = s.weights.isSome
  let eval : Spline K (List K) → K → List K → ℕ → K := fun r x u k => if u.length = s.degrees.length then point r (u.set axis x) k else 0
  have hS : SplitsOn Q split eval := by
    rintro r t ⟨q1, q2, q3⟩ t0 t1
    obtain ⟨a, b⟩ := h r t q1 (by rw [q2]; exact hax) t0 t1
    obtain ⟨x1, x2, x3⟩ := a _ (Or.inl rfl)
    obtain ⟨y1, y2, y3⟩ := a _ (Or.inr rfl)
    refine ⟨⟨x1, x2.trans q2, x3.trans q3⟩, ⟨y1, y2.trans q2, y3.trans q3⟩, fun x => ?_⟩
    have hset : ∀ (f : K → K) (u : List K), u.length = s.degrees.length → Spec.along axis f (u.set axis x) = u.set axis (f x) := by
      intro f u hu
      unfold Spec.along
      rw [List.getD_eq_getElem _ _ (by rw [List.length_set, hu]; exact hax), List.getElem_set_self, List.set_set]
    constructor
    · funext u k
      simp only [eval]
      split
      · rename_i hu
        rw [(b (u.set axis x) (by rw [List.length_set, hu, q2]) k).1, hset _ u hu]
      · rfl
    · funext u k
      simp only [eval]
      split
      · rename_i hu
        rw [(b (u.set axis x) (by rw [List.length_set, hu, q2]) k).2, hset _ u hu]
      · rfl
  obtain ⟨pieces, e1, e2, e3⟩ := split_on hS s ⟨hs, rfl, rfl⟩ locations hne h01 h1
  obtain ⟨g1, g2⟩ := arePieces_getD _ _ _ e2
  refine ⟨pieces, e1, by rw [g1, List.length_insertionSort], fun i r hr => ?_⟩
  obtain ⟨c1, c2, c3⟩ := e3 r (List.mem_of_getElem? hr)
  refine ⟨c1, c2, c3, fun u hu k => ?_⟩
  have := congrFun (congrFun (g2 i r hr (u.getD axis 0)) u) k
  simp only [eval, hu, if_true] at this
  rw [show u.set axis (u.getD axis 0) = u by
    rw [List.getD_eq_getElem _ _ (by rw [hu]; exact hax), List.set_getElem_self]] at this
  exact this

/-- a rational quarter of a disk: degrees two and one -/
def quarter : Spline ℚ (List ℚ) := ⟨[2, 1], none, some [1, 1 / 2, 1, 1, 1 / 2, 1], [[1, 0], [1, 1], [0, 1], [2, 0], [2, 2], [0, 2]]⟩

theorem quarter_bezier : Spec.BezierSpline quarter :=
  ⟨⟨by simp [quarter], by
    intro d hd kv hkv
    simp only [quarter, directions, List.map_cons, List.map_nil, List.mem_cons, List.not_mem_nil, or_false] at hd
    rcases hd with rfl | rfl <;> exact absurd hkv (by simp), by decide, by
    intro ws h
    simp only [quarter, Option.some.injEq] at h
    subst h
    refine ⟨rfl, fun w hw => ?_⟩
    simp only [List.mem_cons, List.not_mem_nil, or_false] at hw
    rcases hw with rfl | rfl | rfl | rfl | rfl | rfl <;> norm_num⟩, rfl, by
    intro P hP
    simp only [quarter, List.mem_cons, List.not_mem_nil, or_false] at hP
    rcases hP with rfl | rfl | rfl | rfl | rfl | rfl <;> rfl⟩

/-- Non-vacuity: a rational surface, split at two locations of its first direction. -/
example : ∃ pieces, splitAt (casteljau 0) quarter [3 / 4, 1 / 4] = some pieces ∧ pieces.length = 3 :=
  let ⟨pieces, h, l, _⟩ := split_splines_partial (casteljau_halves 0) quarter quarter_bezier (by decide) [3 / 4, 1 / 4] (by simp) (by
    intro l hl
    simp only [List.mem_cons, List.not_mem_nil, or_false] at hl
    rcases hl with rfl | rfl <;> norm_num) (by decide +kernel)
  ⟨pieces, h, l⟩

end Splinepy.Split
