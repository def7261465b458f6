import Verif.Props.Flip
import Verif.Lemma.Mirror
import Verif.Props.ExtractSpline

/-!
C41, geometric part: the flipped spline evaluates at a parameter to the point of the original spline at the mirrored parameter.
-/
namespace Splinepy.Index
open Splinepy.Spec Finset

set_option linter.unusedSectionVars false
variable {K : Type} [Field K] [LinearOrder K] [IsStrictOrderedRing K]

/-! ### Specification -/

/-- The listed coordinates of a parameter are mirrored on the middle of the domain. -/
def Spec.mirrorParameter (s : Spline K (List K)) (ax : List ℕ) (u : List K) : List K :=
  List.zipWith (fun (i : ℕ) (dx : Direction K × K) => if i ∈ ax then dx.1.lower + dx.1.upper - dx.2 else dx.2) (List.range u.length) ((directions s).zip u)

/-- Knots inside of the domain occur at most as often as the degree: the functions are continuous. -/
def Spec.ContinuousKnots (d : Direction K) : Prop := ∀ kv, d.knots = some kv → ∀ x, d.lower < x → x < d.upper → kv.count x ≤ d.deg

/-! ### Proof -/

/-- direction with mirrored knots -/
def flipDirection [Inhabited K] (d : Direction K) : Direction K := ⟨d.deg, d.knots.map fun kv => flipKnots d.deg kv⟩

theorem knotSeq_getD [Inhabited K] {kv : List K} {i : ℕ} (h : i < kv.length) : kv.getD i default = knotSeq kv i := by
  unfold knotSeq
  rw [List.getD_eq_getElem _ _ h, List.getD_eq_getElem _ _ h]

theorem flipDirection_knots [Inhabited K] {d : Direction K} (hv : d.Valid) {kv : List K} (hk : d.knots = some kv) :
    ∀ i < kv.length, knotSeq (flipKnots d.deg kv) i = knotSeq kv d.deg + knotSeq kv (kv.length - d.deg - 1) - knotSeq kv (kv.length - 1 - i) := by
  intro i hi
  obtain ⟨-, h2, -⟩ := hv kv hk
  rw [← knotSeq_getD (by rw [flipKnots_length]; exact hi), flipKnots_get _ _ _ hi, knotSeq_getD (by omega), knotSeq_getD (by omega), knotSeq_getD (by omega)]

theorem flipDirection_spec [Inhabited K] {d : Direction K} (hv : d.Valid) :
    (flipDirection d).size = d.size ∧ (flipDirection d).lower = d.lower ∧ (flipDirection d).upper = d.upper ∧ (flipDirection d).Valid := by
  obtain ⟨p, knots⟩ := d
  cases knots with
  | none => exact ⟨rfl, rfl, rfl, fun kv h => by simp [flipDirection] at h⟩
  | some kv =>
    obtain ⟨h1, h2, h3⟩ := hv kv rfl
    have hk := flipDirection_knots hv (kv := kv) rfl
    simp only at hk h2
    have l1 : knotSeq (flipKnots p kv) p = knotSeq kv p := by
      rw [hk _ (by omega), show kv.length - 1 - p = kv.length - p - 1 by omega]
      ring
    have l2 : knotSeq (flipKnots p kv) (kv.length - p - 1) = knotSeq kv (kv.length - p - 1) := by
      rw [hk _ (by omega), show kv.length - 1 - (kv.length - p - 1) = p by omega]
      ring
    have hlo : (flipDirection (⟨p, some kv⟩ : Direction K)).lower = (⟨p, some kv⟩ : Direction K).lower := l1
    have hup : (flipDirection (⟨p, some kv⟩ : Direction K)).upper = (⟨p, some kv⟩ : Direction K).upper := by
      simp only [flipDirection, Direction.upper, Option.map_some, flipKnots_length]
      exact l2
    refine ⟨by simp [flipDirection, Direction.size, flipKnots_length], hlo, hup, ?_⟩
    intro kv' h'
    rw [hlo, hup]
    simp only [flipDirection, Option.map_some, Option.some.injEq] at h'
    subst h'
    exact ⟨flipKnots_sorted _ _ h1, by rw [flipKnots_length]; exact h2, h3⟩

theorem flipDirection_basis [Inhabited K] {d : Direction K} (hv : d.Valid) (hc : Spec.ContinuousKnots d) {x : K} (hx : d.Contains x) (j : ℕ) (hj : j < d.size) :
    (flipDirection d).basis x (d.size - 1 - j) = d.basis (d.lower + d.upper - x) j := by
  obtain ⟨p, knots⟩ := d
  cases knots with
  | none =>
    simp only [flipDirection, Option.map_none, Direction.basis, Direction.size, Direction.lower, Direction.upper] at hj ⊢
    rw [← Mirror.bernstein_mirror p j (by omega)]
    congr 1
    ring
  | some kv =>
    obtain ⟨h1, h2, h3⟩ := hv kv rfl
    obtain ⟨x1, x2⟩ := hx
    have hk := flipDirection_knots hv (kv := kv) rfl
    have hc' := hc kv rfl
    simp only [Direction.lower, Direction.upper] at x1 x2 h3 hc'
    simp only at h2 hk
    have := Mirror.basisC_mirror (kv := kv) (kv' := flipKnots p kv) (p := p) h1 (flipKnots_sorted _ _ h1) h2 h3 hk (x := knotSeq kv p + knotSeq kv (kv.length - p - 1) - x)
      (by linarith) (by linarith) (hc' _) j hj
    simp only [flipDirection, Option.map_some, Direction.basis, Direction.size, Direction.lower, Direction.upper, flipKnots_length]
    rw [← this]
    congr 1
    ring

/-- sums over a mirrored net -/
theorem sum_mirror (dims ax : List ℕ) (hp : ∀ r ∈ dims, 0 < r) (f : ℕ → K) :
    ∑ k ∈ range dims.prod, f (flat dims (Spec.mirror dims ax (digits dims k))) = ∑ k ∈ range dims.prod, f k := by
  have hlt : ∀ k, flat dims (Spec.mirror dims ax (digits dims k)) < dims.prod := fun k => flat_lt _ _ (mirror_inGrid ax (digits_inGrid dims k hp))
  have hinv : ∀ k < dims.prod, flat dims (Spec.mirror dims ax (digits dims (flat dims (Spec.mirror dims ax (digits dims k))))) = k := by
    intro k hk
    have hg := digits_inGrid dims k hp
    rw [digits_flat _ _ (mirror_inGrid ax hg), mirror_mirror ax hg, flat_digits _ _ hk]
  refine Finset.sum_nbij' (fun k => flat dims (Spec.mirror dims ax (digits dims k))) (fun k => flat dims (Spec.mirror dims ax (digits dims k))) ?_ ?_ ?_ ?_ ?_
  · intro k _
    exact mem_range.2 (hlt k)
  · intro k _
    exact mem_range.2 (hlt k)
  · intro k hk
    exact hinv k (mem_range.1 hk)
  · intro k hk
    exact hinv k (mem_range.1 hk)
  · intro k _
    rfl

theorem consistent_of_valid {s : Spline K (List K)} (hs : ValidSpline s) : Spec.Consistent s := by
  have hn : controlMeshResolutions s = netSize s := ExtractSpline.netSize_eq_resolutions
  refine ⟨hs.knots, ?_, by rw [hn]; exact hs.net, fun ws h => by rw [hn, ← hs.net]; exact (hs.weights ws h).1⟩
  intro r hr
  rw [hn] at hr
  obtain ⟨d, hd, rfl⟩ := List.mem_map.1 hr
  have hv := hs.dirs d hd
  obtain ⟨p, knots⟩ := d
  cases knots with
  | none => simp [Direction.size]
  | some kv =>
    obtain ⟨-, h2, -⟩ := hv kv rfl
    simp only [Direction.size] at h2 ⊢
    omega

/-- directions of the flipped spline -/
theorem flip_directions [Inhabited K] {s t : Spline K (List K)} {ax : List ℕ} (hs : ValidSpline s) (h1 : t.degrees = s.degrees) (h2 : t.knotVectors.isSome = s.knotVectors.isSome)
    (h3 : ∀ kvs, s.knotVectors = some kvs → ∃ kvt, t.knotVectors = some kvt ∧ kvt.length = kvs.length ∧
        ∀ i (hi : i < kvs.length), kvt[i]? = some (if i ∈ ax then flipKnots (s.degrees.getD i 0) kvs[i] else kvs[i])) :
    directions t = (directions s).mapIdx fun i d => if i ∈ ax then flipDirection d else d := by
  cases hk : s.knotVectors with
  | none =>
    have ht : t.knotVectors = none := by simpa [hk] using h2
    simp only [directions, hk, ht, h1]
    apply List.ext_getElem
    · simp
    · intro i _ _
      simp only [List.getElem_map, List.getElem_mapIdx, flipDirection, Option.map_none, ite_self]
  | some kvs =>
    obtain ⟨kvt, e1, e2, e3⟩ := h3 kvs hk
    have hl := hs.knots kvs hk
    simp only [directions, hk, e1, h1]
    apply List.ext_getElem
    · simp [e2]
    · intro i i1 i2
      have hi : i < kvs.length := by simp [e2] at i1; omega
      have hd : i < s.degrees.length := by omega
      simp only [List.getElem_zipWith, List.getElem_mapIdx]
      have := e3 i hi
      rw [List.getElem?_eq_getElem (by omega), Option.some.injEq] at this
      rw [this, List.getD_eq_getElem _ _ hd]
      by_cases hia : i ∈ ax
      · simp [hia, flipDirection]
      · simp [hia]

/-- C41: flipping succeeds for valid axes, listed once each, and the flipped spline is valid and has the same domain; at every parameter it evaluates to the point of the original spline at
the parameter mirrored along the flipped axes. The knots of the flipped axes have to occur at most as often as the degree inside of the domain (see `flip_jump_violates`). -/
theorem flip_evaluates [Inhabited K] {s : Spline K (List K)} (hs : ValidSpline s) (axes : List ℤ) (ax : List ℕ) (hax : axes.mapM (pyIndex s.degrees.length) = some ax) (hn : ax.Nodup)
    (hc : ∀ i ∈ ax, ∀ d, (directions s)[i]? = some d → Spec.ContinuousKnots d) :
    ∃ t, flipAxes axes s = some t ∧ ValidSpline t ∧ t.degrees = s.degrees ∧ t.weights.isSome = s.weights.isSome ∧
      ∀ u, InDomain s u → InDomain t u ∧ InDomain s (Spec.mirrorParameter s ax u) ∧ ∀ k, point t u k = point s (Spec.mirrorParameter s ax u) k := by
  have hcons := consistent_of_valid hs
  have hres : controlMeshResolutions s = netSize s := ExtractSpline.netSize_eq_resolutions
  obtain ⟨t, h1, h2, h3, h4, h5, h6, h7, h8, h9⟩ := flip_spec axes ax s hcons hax
  rw [hres] at h3 h5 h7
  have hrest : controlMeshResolutions t = netSize t := ExtractSpline.netSize_eq_resolutions
  rw [hrest] at h3
  have hdir := flip_directions hs h2 h8 (h9 hn)
  have hpos : ∀ r ∈ netSize s, 0 < r := by rw [← hres]; exact hcons.nets
  have hwt : ∀ wt, t.weights = some wt → ∃ ws, s.weights = some ws ∧ wt.length = ws.length ∧ ∀ cs, InGrid (netSize s) cs →
      wt[flat (netSize s) cs]? = ws[flat (netSize s) (Spec.mirror (netSize s) ax cs)]? := by
    intro wt hw
    cases hws : s.weights with
    | none => rw [hw, hws] at h6; simp at h6
    | some ws =>
      obtain ⟨wt', e1, e2, e3⟩ := h7 ws hws
      rw [hw, Option.some.injEq] at e1
      subst e1
      exact ⟨ws, rfl, e2, e3⟩
  have hvt : ValidSpline t := by
    refine ⟨?_, ?_, by rw [h4, hs.net, h3], ?_⟩
    · intro kvt hk
      cases hsk : s.knotVectors with
      | none => rw [hk, hsk] at h8; simp at h8
      | some kvs =>
        obtain ⟨k', e1, e2, -⟩ := h9 hn kvs hsk
        rw [hk, Option.some.injEq] at e1
        subst e1
        rw [e2, h2]
        exact hs.knots kvs hsk
    · rw [hdir]
      intro d hd
      obtain ⟨i, hi, rfl⟩ := List.getElem_of_mem hd
      rw [List.getElem_mapIdx]
      have hv := hs.dirs _ (List.getElem_mem (show i < (directions s).length by simpa using hi))
      split
      · exact (flipDirection_spec hv).2.2.2
      · exact hv
    · intro wt hw
      obtain ⟨ws, e1, e2, e3⟩ := hwt wt hw
      obtain ⟨g1, g2⟩ := hs.weights ws e1
      refine ⟨by rw [e2, g1, h4], ?_⟩
      intro w hmem
      obtain ⟨i, hi, rfl⟩ := List.getElem_of_mem hmem
      have hi' : i < (netSize s).prod := by rw [← hs.net, ← g1, ← e2]; exact hi
      have hg := digits_inGrid (netSize s) i hpos
      have := e3 _ hg
      rw [flat_digits _ _ hi', List.getElem?_eq_getElem hi] at this
      exact g2 _ (List.mem_of_getElem? this.symm)
  refine ⟨t, h1, hvt, h2, h6, fun u hu => ?_⟩
  have hul := hu.length_eq
  have hget := List.forall₂_iff_get.1 hu
  have hmlen : (Spec.mirrorParameter s ax u).length = u.length := by
    simp [Spec.mirrorParameter, hul]
  have hmget : ∀ i (hi : i < u.length) (hi' : i < (Spec.mirrorParameter s ax u).length), (Spec.mirrorParameter s ax u)[i] =
      if i ∈ ax then ((directions s)[i]'(by omega)).lower + ((directions s)[i]'(by omega)).upper - u[i] else u[i] := by
    intro i hi hi'
    simp only [Spec.mirrorParameter, List.getElem_zipWith, List.getElem_range, List.getElem_zip]
  have hut : InDomain t u := by
    unfold InDomain
    rw [hdir, List.forall₂_iff_get]
    refine ⟨by simp [hul], fun i i1 i2 => ?_⟩
    have hd : i < (directions s).length := by omega
    have hcont := hget.2 i hd i2
    simp only [List.get_eq_getElem, List.getElem_mapIdx] at hcont ⊢
    split
    · obtain ⟨-, e1, e2, -⟩ := flipDirection_spec (hs.dirs _ (List.getElem_mem hd))
      unfold Direction.Contains
      rw [e1, e2]
      exact hcont
    · exact hcont
  have hum : InDomain s (Spec.mirrorParameter s ax u) := by
    unfold InDomain
    rw [List.forall₂_iff_get]
    refine ⟨by rw [hmlen, hul], fun i i1 i2 => ?_⟩
    have hcont := hget.2 i i1 (by omega)
    simp only [List.get_eq_getElem] at hcont ⊢
    rw [hmget i (by omega) i2]
    split
    · obtain ⟨a, b⟩ := hcont
      exact ⟨by linarith, by linarith⟩
    · exact hcont
  refine ⟨hut, hum, fun k => ?_⟩
  have hbp : ∀ cs, InGrid (netSize s) cs → basisProduct (basisValues t u) (Spec.mirror (netSize s) ax cs) = basisProduct (basisValues s (Spec.mirrorParameter s ax u)) cs := by
    intro cs hg
    obtain ⟨hcl, hlt⟩ := inGrid_iff.1 hg
    have hnl : (netSize s).length = (directions s).length := by simp [netSize]
    unfold basisProduct basisValues
    congr 1
    rw [hdir]
    apply List.ext_getElem
    · simp [Spec.mirror, hmlen]
    · intro i i1 i2
      simp only [List.length_zipWith, List.length_mapIdx, Spec.mirror] at i1
      have hd : i < (directions s).length := by omega
      have hv := hs.dirs _ (List.getElem_mem hd)
      have hcont := hget.2 i hd (by omega)
      have hci := hlt i (by omega)
      simp only [List.getElem_zipWith, List.getElem_mapIdx, Spec.mirror]
      rw [hmget i (by omega) (by omega)]
      have hsz : (netSize s)[i]'(by omega) = (directions s)[i].size := by simp [netSize]
      by_cases hia : i ∈ ax
      · simp only [hia, if_true]
        rw [List.getD_eq_getElem _ _ (by omega), hsz]
        exact flipDirection_basis hv (hc i hia _ (List.getElem?_eq_getElem hd)) hcont _ (by rw [← hsz]; exact hci)
      · simp only [hia, if_false]
  have hw : ∀ cs, InGrid (netSize s) cs → weightAt t (flat (netSize s) cs) = weightAt s (flat (netSize s) (Spec.mirror (netSize s) ax cs)) := by
    intro cs hg
    unfold weightAt
    cases hwt' : t.weights with
    | none =>
      have : s.weights = none := by simpa [hwt'] using h6
      rw [this]
    | some wt =>
      obtain ⟨ws, e1, -, e3⟩ := hwt wt hwt'
      rw [e1]
      simp only [List.getD_eq_getElem?_getD, e3 cs hg]
  have hnum : ∀ c c' : ℕ → K, (∀ cs, InGrid (netSize s) cs → c' (flat (netSize s) cs) = c (flat (netSize s) (Spec.mirror (netSize s) ax cs))) →
      num t c' u = num s c (Spec.mirrorParameter s ax u) := by
    intro c c' hcc
    unfold num
    rw [h3, ← sum_mirror (netSize s) ax hpos]
    apply sum_congr rfl
    intro i hi
    have hi' := mem_range.1 hi
    have hg := digits_inGrid (netSize s) i hpos
    have hgm := mirror_inGrid ax hg
    rw [digits_flat _ _ hgm, hbp _ hg, hw _ hgm, hcc _ hgm, mirror_mirror ax hg, flat_digits _ _ hi']
  unfold point
  rw [value_eq hvt hut, value_eq hs hum, hnum (fun _ => 1) (fun _ => 1) (fun _ _ => rfl),
    hnum (fun i => (s.controlPoints.getD i []).getD k 0) _ (fun cs hg => by
      simp only [List.getD_eq_getElem?_getD, h5 cs hg])]

/-- a quadratic rational curve with a knot that is not in the middle -/
def exampleFlipCurve : Spline ℚ (List ℚ) := ⟨[2], some [[0, 0, 0, 1, 3, 3, 3]], some [1, 2, 1, 1], [[0, 0], [1, 2], [2, 0], [4, 1]]⟩

example : ValidSpline exampleFlipCurve ∧ [(-1 : ℤ)].mapM (pyIndex 1) = some [0] ∧ [0].Nodup ∧ (∀ d, (directions exampleFlipCurve)[0]? = some d → Spec.ContinuousKnots d) ∧
    InDomain exampleFlipCurve [1] ∧ Spec.mirrorParameter exampleFlipCurve [0] [1] = [2] := by
  refine ⟨⟨fun kvs h => ?_, fun d hd => ?_, by decide +kernel, fun ws h => ?_⟩, by decide, by decide, fun d hd => ?_, ?_, by decide +kernel⟩
  · simp only [exampleFlipCurve, Option.some.injEq] at h
    subst h
    rfl
  · simp only [exampleFlipCurve, directions, List.zipWith_cons_cons, List.zipWith_nil_left, List.mem_singleton] at hd
    subst hd
    intro kv h
    simp only [Option.some.injEq] at h
    subst h
    exact ⟨by decide +kernel, by decide, by decide +kernel⟩
  · simp only [exampleFlipCurve, Option.some.injEq] at h
    subst h
    exact ⟨rfl, by decide +kernel⟩
  · simp only [exampleFlipCurve, directions, List.zipWith_cons_cons, List.zipWith_nil_left, List.getElem?_cons_zero, Option.some.injEq] at hd
    subst hd
    intro kv h x h1 h2
    simp only [Option.some.injEq] at h
    subst h
    have e1 : (0 : ℚ) < x := h1
    have e2 : x < 3 := h2
    simp only [List.count_cons, List.count_nil, beq_iff_eq]
    rw [if_neg e1.ne, if_neg e2.ne']
    split <;> omega
  · exact .cons ⟨by decide +kernel, by decide +kernel⟩ .nil

/-- C41 without the condition on the knots: at a knot where the spline jumps, both splines take the value from their right. -/
theorem flip_jump_violates : ∃ s t : Spline ℚ (List ℚ), ValidSpline s ∧ flipAxes [0] s = some t ∧ InDomain s [1] ∧ Spec.mirrorParameter s [0] [1] = [1] ∧ point t [1] 0 ≠ point s [1] 0 := by
  refine ⟨⟨[0], some [[0, 1, 2]], none, [[0], [1]]⟩, ⟨[0], some [[0, 1, 2]], none, [[1], [0]]⟩, ⟨fun kvs h => ?_, fun d hd => ?_, by decide +kernel, fun ws h => by cases h⟩, by decide +kernel,
    .cons ⟨by decide +kernel, by decide +kernel⟩ .nil, by decide +kernel, by decide +kernel⟩
  · simp only [Option.some.injEq] at h
    subst h
    rfl
  · simp only [directions, List.zipWith_cons_cons, List.zipWith_nil_left, List.mem_singleton] at hd
    subst hd
    intro kv h
    simp only [Option.some.injEq] at h
    subst h
    exact ⟨by decide +kernel, by decide, by decide +kernel⟩

end Splinepy.Index
