import Verif.Model.Cone
import Verif.Props.RevolveShapes

/-!
C106: cones and pyramids. The points of a cone (pyramid) are the points of the segments between its base and its apex.
-/
set_option linter.unusedSectionVars false
namespace Splinepy.Cone
open Splinepy.Index (Spline)
open Splinepy.Create
open Splinepy.Spec Finset

section
variable {K : Type} [Field K] [LinearOrder K] [IsStrictOrderedRing K]

/-- coordinate `k` of the point that divides the segment from `p` to the apex `a` in the ratio `t` -/
def Spec.toApex (a : List K) (t : K) (p : ℕ → K) (k : ℕ) : K := (1 - t) * p k + t * a.getD k 0

theorem apex_evaluates {s s' : Spline K (List K)} {n : ℕ} (hs : ValidSpline s) (hr : Create.Spec.Rect s n) {v : List K}
    (he : extruded s (some v) = some s') (cps : List (List K)) (a : List K) (hlen : cps.length = s'.controlPoints.length)
    (hlow : ∀ g < (netSize s).prod, cps.getD g [] = s'.controlPoints.getD g [])
    (hup : ∀ g < (netSize s).prod, cps.getD (g + (netSize s).prod) [] = a) {u : List K} (hu : InDomain s u) {t : K} (h0 : 0 ≤ t) (h1 : t ≤ 1) (k : ℕ) :
    ValidSpline { s' with controlPoints := cps } ∧ InDomain { s' with controlPoints := cps } (u ++ [t]) ∧
      point { s' with controlPoints := cps } (u ++ [t]) k = Spec.toApex a t (point s u) k := by
  have hd := extruded_directions hs hr he
  have hv := (extruded_valid hs hr he).1
  set c : Spline K (List K) := { s' with controlPoints := cps } with hc
  have hd' : directions c = directions s ++ [Create.Spec.linear s] := hd
  have hvc : ValidSpline c := ⟨hv.knots, hv.dirs, hlen.trans hv.net, fun ws h => ⟨(hv.weights ws h).1.trans hlen.symm, (hv.weights ws h).2⟩⟩
  have hu' := inDomain_append s c _ hd' hu ((linear_bounds s t).2 ⟨h0, h1⟩)
  refine ⟨hvc, hu', ?_⟩
  have hlay := extruded_layers hs hr he k
  unfold point Spec.toApex
  rw [value_eq hvc hu', num_append s c _ hd' hu, num_append s c _ hd' hu, linear_size]
  have hb := linear_basis s h0 h1
  have hden := (den_pos hs hu).ne'
  have hwt : ∀ i, weightAt c i = weightAt s' i := fun i => rfl
  rw [Finset.sum_range_succ, Finset.sum_range_succ, Finset.sum_range_zero, Finset.sum_range_succ, Finset.sum_range_succ, Finset.sum_range_zero, hb.1, hb.2]
  have e0 : ∑ g ∈ range (netSize s).prod, basisProduct (basisValues s u) (digits (netSize s) g) * (weightAt c (g + (netSize s).prod * 0) *
      (c.controlPoints.getD (g + (netSize s).prod * 0) []).getD k 0) = num s (fun i => (s.controlPoints.getD i []).getD k 0) u := by
    refine sum_congr rfl fun g hg => ?_
    obtain ⟨f1, f2⟩ := hlay 0 g (by omega) (mem_range.1 hg)
    rw [hwt, f1]
    rw [Nat.mul_zero, Nat.add_zero] at *
    rw [show c.controlPoints.getD g [] = s'.controlPoints.getD g [] from hlow g (mem_range.1 hg), f2]
    simp
  have e1 : ∑ g ∈ range (netSize s).prod, basisProduct (basisValues s u) (digits (netSize s) g) * (weightAt c (g + (netSize s).prod * 1) *
      (c.controlPoints.getD (g + (netSize s).prod * 1) []).getD k 0) = a.getD k 0 * num s (fun _ => 1) u := by
    unfold num
    rw [mul_sum]
    refine sum_congr rfl fun g hg => ?_
    obtain ⟨f1, f2⟩ := hlay 1 g (by omega) (mem_range.1 hg)
    rw [hwt, f1, Nat.mul_one, show c.controlPoints.getD (g + (netSize s).prod) [] = a from hup g (mem_range.1 hg)]
    ring
  have e2 : ∀ l < 2, ∑ g ∈ range (netSize s).prod, basisProduct (basisValues s u) (digits (netSize s) g) *
      (weightAt c (g + (netSize s).prod * l) * 1) = num s (fun _ => 1) u := by
    intro l hl
    refine sum_congr rfl fun g hg => ?_
    rw [hwt, (hlay l g hl (mem_range.1 hg)).1]
  rw [e0, e1, e2 0 (by omega), e2 1 (by omega)]
  simp only
  rw [value_eq hs hu]
  have : 0 + (1 - t) * num s (fun _ => 1) u + t * num s (fun _ => 1) u = num s (fun _ => 1) u := by ring
  rw [this, div_eq_iff hden, add_mul, mul_assoc, div_mul_cancel₀ _ hden]
  ring

theorem getLastD_eq (p : List K) (h : p.length = 3) : p.getLastD 0 = p.getD 2 0 := by
  match p, h with
  | [a, b, c], _ => rfl

theorem isClose_self (h : K) : isClose h h = true := by
  unfold isClose
  rw [decide_eq_true_eq, sub_self, abs_zero]
  positivity

theorem isClose_zero (h : K) : isClose 0 h = true ↔ |h| * (1 - 1 / 10 ^ 5) ≤ 1 / 10 ^ 8 := by
  unfold isClose
  rw [decide_eq_true_eq, zero_sub, abs_neg]
  constructor <;> intro h <;> linarith

theorem extruded_rows {s s' : Spline K (List K)} (hs : ValidSpline s) (hr : Create.Spec.Rect s 2) {h : K}
    (he : extruded s (some [0, 0, h]) = some s') (g : ℕ) (hg : g < (netSize s).prod) :
    (s'.controlPoints.getD g []).getLastD 0 = 0 ∧ (s'.controlPoints.getD (g + (netSize s).prod) []).getLastD 0 = h := by
  have hv := extruded_valid hs hr he
  have hrow : ∀ i < s'.controlPoints.length, (s'.controlPoints.getD i []).length = 3 := fun i hi => by
    rw [List.getD_eq_getElem _ _ hi]
    exact hv.2.1.2 _ (List.getElem_mem _)
  have hlen : s'.controlPoints.length = (netSize s).prod + (netSize s).prod := by
    have hn := hv.1.net
    rw [hn, netSize_append s s' _ (extruded_directions hs hr he), List.prod_append, List.prod_singleton, linear_size]
    ring
  have hg' : g < s.controlPoints.length := by rw [hs.net]; exact hg
  have hz : (s.controlPoints.getD g []).getD 2 0 = 0 := by
    have := hr.2 s.controlPoints[g] (List.getElem_mem _)
    rw [List.getD_eq_getElem _ _ hg', List.getD_eq_getElem?_getD, List.getElem?_eq_none (by omega)]
    rfl
  have l0 := (extruded_layers hs hr he 2 0 g (by omega) hg).2
  have l1 := (extruded_layers hs hr he 2 1 g (by omega) hg).2
  rw [Nat.mul_zero, Nat.add_zero, hz] at l0
  rw [Nat.mul_one, hz] at l1
  rw [getLastD_eq _ (hrow g (by omega)), getLastD_eq _ (hrow _ (by omega)), l0, l1]
  simp

theorem raise_eq {s : Spline K (List K)} (hr : Create.Spec.Rect s 2) (h : K) : ∃ s', extruded s (some [0, 0, h]) = some s' ∧
    raise s h = some { s' with controlPoints := s'.controlPoints.map fun p => if isClose (p.getLastD 0) h then [0, 0, h] else p } := by
  obtain ⟨s', he⟩ : ∃ s', extruded s (some [0, 0, h]) = some s' := ⟨_, extruded_eq hr (by simp)⟩
  exact ⟨s', he, by unfold raise; rw [he]; rfl⟩

theorem getD_map' {α : Type} (f : List α → List α) (l : List (List α)) (i : ℕ) (hi : i < l.length) : (l.map f).getD i [] = f (l.getD i []) := by
  rw [List.getD_eq_getElem _ _ (by simpa using hi), List.getElem_map, List.getD_eq_getElem _ _ hi]

/-- Over every valid base in the plane and for every height that is not tiny, the result is valid and its points divide the segments from the base to
the apex. -/
theorem raise_evaluates {s : Spline K (List K)} (hs : ValidSpline s) (hr : Create.Spec.Rect s 2) {h : K} (hh : 1 / 10 ^ 8 < |h| * (1 - 1 / 10 ^ 5)) :
    ∃ c, raise s h = some c ∧ c.degrees = s.degrees ++ [1] ∧ c.weights.isSome = s.weights.isSome ∧
    ∀ u, InDomain s u → ∀ t, 0 ≤ t → t ≤ 1 → ValidSpline c ∧ InDomain c (u ++ [t]) ∧ ∀ k, point c (u ++ [t]) k = Spec.toApex [0, 0, h] t (point s u) k := by
  obtain ⟨s', he, hc⟩ := raise_eq hr h
  have hlen : s'.controlPoints.length = (netSize s).prod + (netSize s).prod := by
    rw [(extruded_valid hs hr he).1.net, netSize_append s s' _ (extruded_directions hs hr he), List.prod_append, List.prod_singleton, linear_size]
    ring
  refine ⟨_, hc, (extruded_valid hs hr he).2.2, ?_, fun u hu t h0 h1 => ?_⟩
  · have := he
    rw [extruded_eq hr (by simp)] at this
    cases this
    simp
  · have key := fun k => apex_evaluates hs hr he (s'.controlPoints.map fun p => if isClose (p.getLastD 0) h then [0, 0, h] else p) [0, 0, h] (by simp)
      (fun g hg => by
        rw [getD_map' _ _ _ (by omega), (extruded_rows hs hr he g hg).1, if_neg]
        rw [isClose_zero]; linarith)
      (fun g hg => by rw [getD_map' _ _ _ (by omega), (extruded_rows hs hr he g hg).2, if_pos (isClose_self h)]) hu h0 h1 k
    exact ⟨(key 0).1, (key 0).2.1, fun k => (key k).2.2⟩

/-- Over every valid base in the plane and for every tiny height, all points are the apex. -/
theorem raise_tiny {s : Spline K (List K)} (hs : ValidSpline s) (hr : Create.Spec.Rect s 2) {h : K} (hh : |h| * (1 - 1 / 10 ^ 5) ≤ 1 / 10 ^ 8) :
    ∃ c, raise s h = some c ∧ ∀ p ∈ c.controlPoints, p = [0, 0, h] := by
  obtain ⟨s', he, hc⟩ := raise_eq hr h
  have hlen : s'.controlPoints.length = (netSize s).prod + (netSize s).prod := by
    rw [(extruded_valid hs hr he).1.net, netSize_append s s' _ (extruded_directions hs hr he), List.prod_append, List.prod_singleton, linear_size]
    ring
  refine ⟨_, hc, fun p hp => ?_⟩
  obtain ⟨q, hq, rfl⟩ := List.mem_map.1 hp
  obtain ⟨i, hi, rfl⟩ := List.mem_iff_getElem.1 hq
  rw [← List.getD_eq_getElem _ ([] : List K) hi]
  rcases Nat.lt_or_ge i (netSize s).prod with hl | hl
  · rw [(extruded_rows hs hr he i hl).1, if_pos ((isClose_zero h).2 hh)]
  · obtain ⟨g, rfl⟩ := Nat.exists_eq_add_of_le' hl
    rw [(extruded_rows hs hr he g (by omega)).2, if_pos (isClose_self h)]

/-! ### pyramids -/

/-- C106: for all dimensions `pyramid` returns a valid linear spline in space whose points divide the segments from the base
`[0, width] × [0, length]` in the plane to the apex above its centre. -/
theorem pyramid_evaluates (w l h : K) : ∃ p, pyramid w l h = some p ∧ ValidSpline p ∧ Create.Spec.Rect p 3 ∧ p.degrees = [1, 1, 1] ∧
    ∀ x y t : K, 0 ≤ x → x ≤ 1 → 0 ≤ y → y ≤ 1 → 0 ≤ t → t ≤ 1 →
      point p [x, y, t] 0 = (1 - t) * (x * w) + t * (w / 2) ∧ point p [x, y, t] 1 = (1 - t) * (y * l) + t * (l / 2) ∧ point p [x, y, t] 2 = t * h := by
  obtain ⟨b, hb, hbv, hbr, hbd, hbk, -, hbe⟩ := box_evaluates [w, l] (by simp)
  have hrect : Create.Spec.Rect b 2 := hbr
  obtain ⟨s', he⟩ : ∃ s', extruded b (some [0, 0, h]) = some s' := ⟨_, extruded_eq hrect (by simp)⟩
  have hbox : box [w, l, h] = some s' := by
    have h1 : box [w, l, h] = (box [w, l]).bind fun b => extruded b (some [0, 0, h]) := by
      simp only [box, boxLoop]
      cases extruded (⟨[1], none, none, [[0], [w]]⟩ : Spline K (List K)) (some (List.replicate (0 + 1) 0 ++ [l])) with
      | none => rfl
      | some q =>
        simp only [Option.bind_some]
        cases hq : extruded q (some (List.replicate (0 + 1 + 1) 0 ++ [h])) with
        | none => simp only [show ([0, 0, h] : List K) = List.replicate (0 + 1 + 1) 0 ++ [h] from rfl, hq]; rfl
        | some r => simp only [show ([0, 0, h] : List K) = List.replicate (0 + 1 + 1) 0 ++ [h] from rfl, hq]; rfl
    rw [h1, hb, Option.bind_some, he]
  have hn : (netSize b).prod = 4 := by
    unfold netSize directions
    rw [hbk, hbd]
    rfl
  have hv := extruded_valid hbv hrect he
  have hlen : s'.controlPoints.length = 8 := by
    rw [hv.1.net, netSize_append b s' _ (extruded_directions hbv hrect he), List.prod_append, List.prod_singleton, linear_size, hn]
  set cps := s'.controlPoints.take 4 ++ (s'.controlPoints.drop 4).map fun _ => [w / 2, l / 2, h] with hcps
  have hcl : cps.length = s'.controlPoints.length := by rw [hcps]; simp [hlen]
  have key := fun (u : List K) (hu : InDomain b u) (t : K) (h0 : 0 ≤ t) (h1 : t ≤ 1) (k : ℕ) =>
    apex_evaluates hbv hrect he cps [w / 2, l / 2, h] hcl
      (fun g hg => by
        rw [hn] at hg
        rw [hcps, List.getD_eq_getElem?_getD, List.getElem?_append_left (by simp [hlen]; omega), List.getElem?_take, if_pos hg, ← List.getD_eq_getElem?_getD])
      (fun g hg => by
        rw [hn] at hg ⊢
        rw [hcps, List.getD_eq_getElem?_getD, List.getElem?_append_right (by simp [hlen]), List.getElem?_map]
        have hi : g + 4 - (s'.controlPoints.take 4).length = g := by simp [hlen]
        rw [hi, List.getElem?_drop, List.getElem?_eq_getElem (by omega)]
        rfl) hu h0 h1 k
  have hdom : ∀ x y : K, 0 ≤ x → x ≤ 1 → 0 ≤ y → y ≤ 1 → InDomain b [x, y] := by
    intro x y x0 x1 y0 y1
    unfold InDomain directions
    rw [hbk, hbd]
    exact .cons ⟨x0, x1⟩ (.cons ⟨y0, y1⟩ .nil)
  have hfin : pyramid w l h = some { s' with controlPoints := cps } := by unfold pyramid; rw [hbox]; rfl
  refine ⟨_, hfin, (key [0, 0] (hdom 0 0 le_rfl zero_le_one le_rfl zero_le_one) 0 le_rfl zero_le_one 0).1, ⟨?_, ?_⟩, by rw [hv.2.2, hbd]; rfl, ?_⟩
  · intro hne
    have : cps.length = 0 := by rw [show cps = [] from hne]; rfl
    omega
  · intro p hp
    rcases List.mem_append.1 hp with hp | hp
    · exact hv.2.1.2 p (List.mem_of_mem_take hp)
    · obtain ⟨_, -, rfl⟩ := List.mem_map.1 hp
      rfl
  · intro x y t x0 x1 y0 y1 t0 t1
    have hb2 := hbe [x, y] rfl (by simp [x0, x1, y0, y1])
    have hk := fun k => (key [x, y] (hdom x y x0 x1 y0 y1) t t0 t1 k).2.2
    refine ⟨?_, ?_, ?_⟩
    · rw [show ([x, y, t] : List K) = [x, y] ++ [t] from rfl, hk 0]
      simp [Spec.toApex, hb2]
    · rw [show ([x, y, t] : List K) = [x, y] ++ [t] from rfl, hk 1]
      simp [Spec.toApex, hb2]
    · rw [show ([x, y, t] : List K) = [x, y] ++ [t] from rfl, hk 2]
      simp [Spec.toApex, hb2]

end

/-- a pyramid over ℚ -/
example : ∃ p, pyramid (2 : ℚ) 4 3 = some p ∧ p.controlPoints = [[0, 0, 0], [2, 0, 0], [0, 4, 0], [2, 4, 0], [1, 2, 3], [1, 2, 3], [1, 2, 3], [1, 2, 3]] := by
  refine ⟨_, rfl, ?_⟩
  decide +kernel

/-! ### cones -/

/-- C106: for all radii and angles and every height above the tolerance the solid cone exists: the point with the parameters `r`, `v`, `t` lies at height
`t * height`, at the distance `(1 - t) * ((1 - r) * inner + r * outer)` from the axis and in a direction that depends on `v` alone and sweeps the angle. -/
theorem cone_solid_partial (outer height : ℝ) (inner : Option ℝ) (angle : ℝ) (degree : Bool) (hh : 1 / 10 ^ 8 < |height| * (1 - 1 / 10 ^ 5)) :
    ∃ c, cone outer height inner true angle degree = some c ∧ ValidSpline c ∧ c.degrees = [1, 2, 1] ∧ c.weights.isSome ∧
    ∃ (n : ℕ) (θ : ℝ → ℝ), 0 < n ∧ θ 0 = 0 ∧ θ n = Revolve.Spec.inRadians angle degree ∧
      (0 ≤ Revolve.Spec.inRadians angle degree → ∀ x y : ℝ, 0 ≤ x → x ≤ y → y ≤ n → θ x ≤ θ y) ∧
      ∀ r v t : ℝ, 0 ≤ r → r ≤ 1 → 0 ≤ v → v ≤ n → 0 ≤ t → t ≤ 1 → InDomain c [r, v, t] ∧
        point c [r, v, t] 0 = (1 - t) * ((1 - r) * inner.getD 0 + r * outer) * Real.cos (θ v) ∧
        point c [r, v, t] 1 = (1 - t) * ((1 - r) * inner.getD 0 + r * outer) * Real.sin (θ v) ∧ point c [r, v, t] 2 = t * height := by
  obtain ⟨d, hd, hdv, hdr, hdd, hdw, n, θ, hn, t0, t1, tm, hde⟩ := Revolve.disk_evaluates outer inner angle 4 degree
  obtain ⟨c, hc, hcd, hcw, hce⟩ := raise_evaluates hdv hdr hh
  have hnpos : 0 < n := by
    have := (Revolve.knotSpans_spec (Revolve.Spec.inRadians angle degree) (some 4)).1
    omega
  have hz : ∀ u, InDomain d u → point d u 2 = 0 := by
    intro u hu
    refine value_zero hdv hu _ fun i hi => ?_
    have hi' : i < d.controlPoints.length := by rw [hdv.net]; exact hi
    have := hdr.2 d.controlPoints[i] (List.getElem_mem _)
    rw [List.getD_eq_getElem _ _ hi', List.getD_eq_getElem?_getD, List.getElem?_eq_none (by omega)]
    rfl
  have hdom0 : InDomain d [0, 0] := (hde 0 0 le_rfl zero_le_one le_rfl (Nat.cast_nonneg n)).1
  refine ⟨c, ?_, (hce _ hdom0 0 le_rfl zero_le_one).1, by rw [hcd, hdd]; rfl, by rw [hcw, hdw], n, θ, hnpos, t0, t1, tm, ?_⟩
  · unfold cone
    rw [if_pos rfl, hd, Option.bind_some, hc]
  · intro r v t r0 r1 v0 v1 h0 h1
    obtain ⟨q1, q2, q3⟩ := hde r v r0 r1 v0 v1
    obtain ⟨-, p1, p2⟩ := hce _ q1 t h0 h1
    refine ⟨p1, ?_, ?_, ?_⟩
    · rw [show ([r, v, t] : List ℝ) = [r, v] ++ [t] from rfl, p2, Spec.toApex, q2]; simp; ring
    · rw [show ([r, v, t] : List ℝ) = [r, v] ++ [t] from rfl, p2, Spec.toApex, q3]; simp; ring
    · rw [show ([r, v, t] : List ℝ) = [r, v] ++ [t] from rfl, p2, Spec.toApex, hz _ q1]; simp

/-- C106: the same for the surface of a cone; inner radius and angle have no effect on it. -/
theorem cone_surface_partial (outer height : ℝ) (inner : Option ℝ) (angle : ℝ) (degree : Bool) (hh : 1 / 10 ^ 8 < |height| * (1 - 1 / 10 ^ 5)) :
    ∃ c, cone outer height inner false angle degree = some c ∧ ValidSpline c ∧ c.degrees = [2, 1] ∧ c.weights.isSome ∧
    ∃ (n : ℕ) (θ : ℝ → ℝ), 0 < n ∧ θ 0 = 0 ∧ θ n = 2 * Real.pi ∧ (∀ x y : ℝ, 0 ≤ x → x ≤ y → y ≤ n → θ x ≤ θ y) ∧
      ∀ v t : ℝ, 0 ≤ v → v ≤ n → 0 ≤ t → t ≤ 1 → InDomain c [v, t] ∧
        point c [v, t] 0 = (1 - t) * outer * Real.cos (θ v) ∧ point c [v, t] 1 = (1 - t) * outer * Real.sin (θ v) ∧ point c [v, t] 2 = t * height := by
  obtain ⟨d, hd, -⟩ := Revolve.circle_evaluates outer 3
  have h360 : Revolve.Spec.inRadians 360 true = 2 * Real.pi := by simp [Revolve.Spec.inRadians]; ring
  obtain ⟨hdv, hdr, hdd, hdw, n, θ, hn, t0, t1, tm, -, hde⟩ := Revolve.arc_evaluates (show Revolve.arc outer 360 3 0 true = some d from hd)
  rw [h360] at hn t1 tm
  obtain ⟨c, hc, hcd, hcw, hce⟩ := raise_evaluates hdv hdr hh
  have hnpos : 0 < n := by
    have := (Revolve.knotSpans_spec (2 * Real.pi) (some 3)).1
    omega
  have hz : ∀ u, InDomain d u → point d u 2 = 0 := by
    intro u hu
    refine value_zero hdv hu _ fun i hi => ?_
    have hi' : i < d.controlPoints.length := by rw [hdv.net]; exact hi
    have := hdr.2 d.controlPoints[i] (List.getElem_mem _)
    rw [List.getD_eq_getElem _ _ hi', List.getD_eq_getElem?_getD, List.getElem?_eq_none (by omega)]
    rfl
  have hdom0 : InDomain d [0] := (hde 0 le_rfl (Nat.cast_nonneg n)).1
  refine ⟨c, ?_, (hce _ hdom0 0 le_rfl zero_le_one).1, by rw [hcd, hdd]; rfl, by rw [hcw, hdw], n, θ, hnpos, t0, t1, tm (by have := Real.pi_pos; linarith), ?_⟩
  · unfold cone
    rw [if_neg (by simp), hd, Option.bind_some, hc]
  · intro v t v0 v1 h0 h1
    obtain ⟨q1, q2, q3⟩ := hde v v0 v1
    have hs0 : Revolve.Spec.inRadians 0 true = 0 := by simp [Revolve.Spec.inRadians]
    rw [hs0, zero_add] at q2 q3
    obtain ⟨-, p1, p2⟩ := hce _ q1 t h0 h1
    refine ⟨p1, ?_, ?_, ?_⟩
    · rw [show ([v, t] : List ℝ) = [v] ++ [t] from rfl, p2, Spec.toApex, q2]; simp; ring
    · rw [show ([v, t] : List ℝ) = [v] ++ [t] from rfl, p2, Spec.toApex, q3]; simp; ring
    · rw [show ([v, t] : List ℝ) = [v] ++ [t] from rfl, p2, Spec.toApex, hz _ q1]; simp

/-- the hypothesis on the height, met by a cone of height one -/
example : (1 : ℝ) / 10 ^ 8 < |1| * (1 - 1 / 10 ^ 5) := by norm_num

/-- C106, where the code deviates: for every positive height up to the tolerance of `isclose` and every base, however large, all control points of the cone
are the apex: it has no base. -/
theorem cone_tiny_violates (outer height : ℝ) (inner : Option ℝ) (angle : ℝ) (degree volumetric : Bool) (hh : |height| ≤ 1 / 10 ^ 8) :
    ∃ c, cone outer height inner volumetric angle degree = some c ∧ ∀ p ∈ c.controlPoints, p = [0, 0, height] := by
  have hh' : |height| * (1 - 1 / 10 ^ 5) ≤ 1 / 10 ^ 8 := by
    have := abs_nonneg height
    linarith
  cases volumetric with
  | true =>
    obtain ⟨d, hd, hdv, hdr, -⟩ := Revolve.disk_evaluates outer inner angle 4 degree
    obtain ⟨c, hc, h⟩ := raise_tiny hdv hdr hh'
    exact ⟨c, by unfold cone; rw [if_pos rfl, hd, Option.bind_some, hc], h⟩
  | false =>
    obtain ⟨d, hd, -⟩ := Revolve.circle_evaluates outer 3
    obtain ⟨hdv, hdr, -⟩ := Revolve.arc_evaluates (show Revolve.arc outer 360 3 0 true = some d from hd)
    obtain ⟨c, hc, h⟩ := raise_tiny hdv hdr hh'
    exact ⟨c, by unfold cone; rw [if_neg (by simp), hd, Option.bind_some, hc], h⟩

end Splinepy.Cone
