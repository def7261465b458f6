import Verif.Model.Svg
import Verif.Props.FlipGeometry
import Verif.Props.Boundary

/-!
C95: the SVG path of a spline draws the spline (curves) or its closed boundary (surfaces).
-/
namespace Splinepy.Svg
open Splinepy.Index Splinepy.Spec Finset

set_option linter.unusedSectionVars false
variable {K : Type} [Field K] [LinearOrder K] [IsStrictOrderedRing K]

/-! ### Specification -/

/-- A point of the cubic curve with four control points, as the SVG standard defines it. -/
def Spec.cubicPoint (p0 p1 p2 p3 : K × K) (t : K) : K × K :=
  ((1 - t) ^ 3 * p0.1 + 3 * (1 - t) ^ 2 * t * p1.1 + 3 * (1 - t) * t ^ 2 * p2.1 + t ^ 3 * p3.1,
    (1 - t) ^ 3 * p0.2 + 3 * (1 - t) ^ 2 * t * p1.2 + 3 * (1 - t) * t ^ 2 * p2.2 + t ^ 3 * p3.2)

/-- The point `q` is on the path, if the pen is at `pen` (if it is anywhere). -/
def Spec.Drawn : Option (K × K) → List (Command K) → K × K → Prop
  | _, [], _ => False
  | _, .move p :: l, q => Spec.Drawn (some p) l q
  | none, .cubic _ _ _ :: _, _ => False
  | some p0, .cubic p1 p2 p3 :: l, q => (∃ t, 0 ≤ t ∧ t ≤ 1 ∧ q = Spec.cubicPoint p0 p1 p2 p3 t) ∨ Spec.Drawn (some p3) l q

/-- Where the path starts and where the pen is in the end; no second start. -/
def Spec.Closed : List (Command K) → Prop
  | .move p :: l => (∀ c ∈ l, ∀ q, c ≠ .move q) ∧ (l = [] ∨ ∃ p1 p2, l.getLast? = some (.cubic p1 p2 p))
  | _ => False

/-- The position of a point of a spline in the picture: shifted, and the vertical axis points down. -/
def Spec.positionAt (minX maxY : K) (s : Spline K (List K)) (u : List K) : K × K := (point s u 0 - minX, maxY - point s u 1)

/-- Curves whose knots are all continuous. -/
structure Spec.Curve (s : Spline K (List K)) (d : Direction K) : Prop where
  valid : ValidSpline s
  dir : directions s = [d]
  polynomial : s.weights = none
  continuous : Index.Spec.ContinuousKnots d

/-- Contract of degree elevation (a function of the spline library) for curves of a class `Q` (all of them, or for example those without knots): the same curve in the plane, with degree
three. -/
def Spec.Elevates (Q : Spline K (List K) → Prop) (elevate : Spline K (List K) → ℕ → ℕ → Spline K (List K)) : Prop :=
  ∀ s d, Q s → Spec.Curve s d → 0 < d.deg → d.deg < 3 → Q (elevate s 0 (3 - d.deg)) ∧
    ∃ d', Spec.Curve (elevate s 0 (3 - d.deg)) d' ∧ d'.deg = 3 ∧ d'.lower = d.lower ∧ d'.upper = d.upper ∧
      ∀ x, d.Contains x → ∀ k < 2, point (elevate s 0 (3 - d.deg)) [x] k = point s [x] k

/-- Consecutive intervals from `a` to `b`. -/
def Spec.Consecutive (a b : K) : List (K × K) → Prop
  | [] => a = b
  | i :: l => i.1 = a ∧ i.1 ≤ i.2 ∧ Spec.Consecutive i.2 b l

/-- Contract of Bezier extraction (see C57) for curves of degree three of a class `Q`: one Bezier curve of the same degree for each of consecutive intervals of the domain. -/
def Spec.Extracts (Q : Spline K (List K) → Prop) (beziers : Spline K (List K) → List (Spline K (List K))) : Prop :=
  ∀ s d, Q s → Spec.Curve s d → d.deg = 3 → ∃ spans, Spec.Consecutive d.lower d.upper spans ∧
    List.Forall₂ (fun (i : K × K) r => r.degrees = [3] ∧ r.knotVectors = none ∧ r.weights = none ∧ r.controlPoints.length = 4 ∧
      ∀ t, 0 ≤ t → t ≤ 1 → ∀ k < 2, point r [t] k = point s [i.1 + t * (i.2 - i.1)] k) spans (beziers s)

/-! ### Proof -/

/-- point of the cubic Bezier curve with these control points in the picture -/
def bezierAt (minX maxY : K) (cps : List (List K)) (t : K) : K × K :=
  Spec.cubicPoint (place minX maxY (cps.getD 0 [])) (place minX maxY (cps.getD 1 [])) (place minX maxY (cps.getD 2 [])) (place minX maxY (cps.getD 3 [])) t

theorem cubic_start (p0 p1 p2 p3 : K × K) : Spec.cubicPoint p0 p1 p2 p3 0 = p0 := by
  simp [Spec.cubicPoint]

theorem cubic_end (p0 p1 p2 p3 : K × K) : Spec.cubicPoint p0 p1 p2 p3 1 = p3 := by
  simp [Spec.cubicPoint]

theorem bezierAt_eq (minX maxY : K) {r : Spline K (List K)} (h1 : r.degrees = [3]) (h2 : r.knotVectors = none) (h3 : r.weights = none) (t : K) :
    bezierAt minX maxY r.controlPoints t = Spec.positionAt minX maxY r [t] := by
  have hd : directions r = [⟨3, none⟩] := by simp [directions, h1, h2]
  have hp : ∀ k, point r [t] k = (1 - t) ^ 3 * (r.controlPoints.getD 0 []).getD k 0 + 3 * (1 - t) ^ 2 * t * (r.controlPoints.getD 1 []).getD k 0 +
      3 * (1 - t) * t ^ 2 * (r.controlPoints.getD 2 []).getD k 0 + t ^ 3 * (r.controlPoints.getD 3 []).getD k 0 := by
    intro k
    unfold point value
    rw [h3]
    simp only [netSize, basisValues, hd, List.map_cons, List.map_nil, List.zipWith_cons_cons, List.zipWith_nil_left, Direction.size, List.prod_cons, List.prod_nil, mul_one,
      tensorEval_eq_sum]
    simp only [Finset.sum_range_succ, Finset.sum_range_zero, zero_add]
    simp only [digits, basisProduct, List.zipWith_cons_cons, List.zipWith_nil_left, List.prod_cons, List.prod_nil, mul_one, Direction.basis, bernstein]
    norm_num [Nat.choose, List.range_succ]
    ring
  unfold bezierAt Spec.positionAt Spec.cubicPoint place
  rw [hp, hp]
  ext <;> simp only <;> ring

/-- consecutive elements are joined -/
def Joined (minX maxY : K) : List (List (List K)) → Prop
  | a :: b :: l => place minX maxY (a.getD 3 []) = place minX maxY (b.getD 0 []) ∧ Joined minX maxY (b :: l)
  | _ => True

theorem pathOf_draws (minX maxY : K) (els : List (List (List K))) (hne : els ≠ []) (h4 : ∀ cps ∈ els, cps.length = 4) (hj : Joined minX maxY els) :
    ∃ cmds, pathOf minX maxY els = some cmds ∧ (∀ q, Spec.Drawn none cmds q ↔ ∃ cps ∈ els, ∃ t, 0 ≤ t ∧ t ≤ 1 ∧ q = bezierAt minX maxY cps t) ∧
      (place minX maxY ((els.getLast hne).getD 3 []) = place minX maxY ((els.head hne).getD 0 []) → Spec.Closed cmds) := by
  have hm : els.mapM (fun cps => cps[1]?.bind fun p1 => cps[2]?.bind fun p2 => cps[3]?.map fun p3 =>
      Command.cubic (place minX maxY p1) (place minX maxY p2) (place minX maxY p3)) =
      some (els.map fun cps => Command.cubic (place minX maxY (cps.getD 1 [])) (place minX maxY (cps.getD 2 [])) (place minX maxY (cps.getD 3 []))) := by
    apply Grid.mapM_eq_some_map'
    intro cps hc
    have hl := h4 cps hc
    rw [List.getElem?_eq_getElem (by omega), List.getElem?_eq_getElem (by omega), List.getElem?_eq_getElem (by omega), List.getD_eq_getElem _ _ (by omega),
      List.getD_eq_getElem _ _ (by omega), List.getD_eq_getElem _ _ (by omega)]
    rfl
  have hd : ∀ (els : List (List (List K))) (pen : K × K), (∀ e ∈ els.head?, pen = place minX maxY (e.getD 0 [])) → Joined minX maxY els → ∀ q,
      Spec.Drawn (some pen) (els.map fun cps => Command.cubic (place minX maxY (cps.getD 1 [])) (place minX maxY (cps.getD 2 [])) (place minX maxY (cps.getD 3 []))) q ↔
        ∃ cps ∈ els, ∃ t, 0 ≤ t ∧ t ≤ 1 ∧ q = bezierAt minX maxY cps t := by
    intro els
    induction els with
    | nil => intro pen _ _ q; simp [Spec.Drawn]
    | cons e els ih =>
      intro pen hp hj q
      have hpe := hp e (by simp)
      subst hpe
      rw [List.map_cons]
      simp only [Spec.Drawn, List.mem_cons, exists_eq_or_imp]
      rw [ih (place minX maxY (e.getD 3 []))]
      · rfl
      · intro e' he'
        cases els with
        | nil => simp at he'
        | cons f els =>
          simp only [List.head?_cons, Option.mem_def, Option.some.injEq] at he'
          subst he'
          exact hj.1
      · cases els with
        | nil => trivial
        | cons f els => exact hj.2
  obtain ⟨e, els', rfl⟩ := List.exists_cons_of_ne_nil hne
  have hl := h4 e List.mem_cons_self
  refine ⟨Command.move (place minX maxY (e.getD 0 [])) ::
      (e :: els').map fun cps => Command.cubic (place minX maxY (cps.getD 1 [])) (place minX maxY (cps.getD 2 [])) (place minX maxY (cps.getD 3 [])), ?_, ?_, ?_⟩
  · unfold pathOf
    rw [hm, List.head?_cons, Option.bind_some, List.getElem?_eq_getElem (by omega), List.getD_eq_getElem _ _ (by omega)]
    rfl
  · intro q
    simp only [Spec.Drawn]
    rw [hd _ _ (by simp) hj]
  · intro hcl
    refine ⟨?_, Or.inr ⟨place minX maxY (((e :: els').getLast hne).getD 1 []), place minX maxY (((e :: els').getLast hne).getD 2 []), ?_⟩⟩
    · intro c hc q
      obtain ⟨cps, -, rfl⟩ := List.mem_map.1 hc
      simp
    · rw [List.getLast?_map, List.getLast?_eq_some_getLast hne, Option.map_some, hcl]
      rfl

theorem bezierAt_zero (minX maxY : K) (cps : List (List K)) : bezierAt minX maxY cps 0 = place minX maxY (cps.getD 0 []) := cubic_start _ _ _ _

theorem bezierAt_one (minX maxY : K) (cps : List (List K)) : bezierAt minX maxY cps 1 = place minX maxY (cps.getD 3 []) := cubic_end _ _ _ _

/-- what a list of elements of one curve draws -/
structure Traces (minX maxY : K) (els : List (List (List K))) (f : K → K × K) (a b : K) : Prop where
  length : ∀ cps ∈ els, cps.length = 4
  joined : Joined minX maxY els
  drawn : ∀ q, (∃ cps ∈ els, ∃ t, 0 ≤ t ∧ t ≤ 1 ∧ q = bezierAt minX maxY cps t) ↔ ∃ x, a ≤ x ∧ x ≤ b ∧ q = f x
  first : ∀ e ∈ els.head?, place minX maxY (e.getD 0 []) = f a
  last : ∀ e ∈ els.getLast?, place minX maxY (e.getD 3 []) = f b
  ne : els ≠ []

theorem traces_of_spans (minX maxY : K) (f : K → K × K) {spans : List (K × K)} {els : List (List (List K))} {a b : K} (hc : Spec.Consecutive a b spans)
    (h : List.Forall₂ (fun (i : K × K) cps => cps.length = 4 ∧ ∀ t, 0 ≤ t → t ≤ 1 → bezierAt minX maxY cps t = f (i.1 + t * (i.2 - i.1))) spans els) (hne : els ≠ []) :
    a ≤ b ∧ Traces minX maxY els f a b := by
  induction h generalizing a with
  | nil => exact absurd rfl hne
  | @cons i e spans els hie hrest ih =>
    obtain ⟨rfl, hi, hc⟩ := hc
    obtain ⟨hl, ht⟩ := hie
    have e0 : place minX maxY (e.getD 0 []) = f i.1 := by
      rw [← bezierAt_zero, ht 0 le_rfl zero_le_one]
      congr 1
      ring
    have e1 : place minX maxY (e.getD 3 []) = f i.2 := by
      rw [← bezierAt_one, ht 1 zero_le_one le_rfl]
      congr 1
      ring
    have hd : ∀ q, (∃ t, 0 ≤ t ∧ t ≤ 1 ∧ q = bezierAt minX maxY e t) ↔ ∃ x, i.1 ≤ x ∧ x ≤ i.2 ∧ q = f x := by
      intro q
      constructor
      · rintro ⟨t, t0, t1, rfl⟩
        refine ⟨_, ?_, ?_, ht t t0 t1⟩
        · have := mul_nonneg t0 (sub_nonneg.2 hi)
          linarith
        · have := mul_le_of_le_one_left (sub_nonneg.2 hi) t1
          linarith
      · rintro ⟨x, x0, x1, rfl⟩
        rcases eq_or_lt_of_le hi with he | hlt
        · refine ⟨0, le_rfl, zero_le_one, ?_⟩
          rw [ht 0 le_rfl zero_le_one]
          congr 1
          linarith
        · have hp := sub_pos.2 hlt
          refine ⟨(x - i.1) / (i.2 - i.1), div_nonneg (sub_nonneg.2 x0) hp.le, (div_le_one hp).2 (by linarith), ?_⟩
          rw [ht _ (div_nonneg (sub_nonneg.2 x0) hp.le) ((div_le_one hp).2 (by linarith)), div_mul_cancel₀ _ hp.ne']
          congr 1
          ring
    cases hrest with
    | nil =>
      have hb : i.2 = b := hc
      subst hb
      refine ⟨hi, ⟨by simpa using hl, trivial, fun q => ?_, by simpa using e0, by simpa using e1, hne⟩⟩
      rw [← hd]
      simp
    | @cons i' e' spans els hie' hrest' =>
      obtain ⟨hle, T⟩ := ih hc (by simp)
      refine ⟨hi.trans hle, ⟨?_, ⟨?_, T.joined⟩, fun q => ?_, by simpa using e0, ?_, hne⟩⟩
      · intro cps hm
        rcases List.mem_cons.1 hm with rfl | hm
        · exact hl
        · exact T.length _ hm
      · rw [e1, T.first e' (by simp)]
      · simp only [List.mem_cons, exists_eq_or_imp]
        rw [hd]
        have := T.drawn q
        simp only [List.mem_cons, exists_eq_or_imp] at this
        rw [this]
        constructor
        · rintro (⟨x, x0, x1, rfl⟩ | ⟨x, x0, x1, rfl⟩)
          · exact ⟨x, x0, x1.trans hle, rfl⟩
          · exact ⟨x, hi.trans x0, x1, rfl⟩
        · rintro ⟨x, x0, x1, rfl⟩
          rcases le_total x i.2 with h | h
          · exact Or.inl ⟨x, x0, h, rfl⟩
          · exact Or.inr ⟨x, h, x1, rfl⟩
      · intro e'' he''
        rw [List.getLast?_cons_cons] at he''
        exact T.last e'' he''

theorem upper_gt {s : Spline K (List K)} {d : Direction K} (h : Spec.Curve s d) : d.lower < d.upper := by
  have hv := h.valid.dirs d (by rw [h.dir]; simp)
  obtain ⟨p, knots⟩ := d
  cases knots with
  | none => exact zero_lt_one
  | some kv => exact (hv kv rfl).2.2

/-- the elements of a curve of degree one or two -/
theorem curve_traces {Q : Spline K (List K) → Prop} {elevate : Spline K (List K) → ℕ → ℕ → Spline K (List K)} (he : Spec.Elevates Q elevate) (fit : Spline K (List K) → Option (Spline K (List K)))
    {beziers : Spline K (List K) → List (Spline K (List K))} (hb : Spec.Extracts Q beziers) (minX maxY : K) {s : Spline K (List K)} {d : Direction K} (hs : Spec.Curve s d)
    (hq : Q s) (h0 : 0 < d.deg) (h3 : d.deg < 3) :
    ∃ a, approximateCurve elevate fit s = some a ∧ Traces minX maxY ((beziers a).map (·.controlPoints)) (fun x => Spec.positionAt minX maxY s [x]) d.lower d.upper := by
  have hdeg : s.degrees.getD 0 0 = d.deg := by
    have hd := hs.dir
    unfold directions at hd
    cases hk : s.knotVectors with
    | none =>
      rw [hk] at hd
      obtain ⟨a, ha, rfl⟩ := List.map_eq_singleton_iff.1 hd
      rw [ha]
      rfl
    | some kvs =>
      rw [hk] at hd
      cases hsd : s.degrees with
      | nil => rw [hsd] at hd; simp at hd
      | cons p ps =>
        cases kvs with
        | nil => rw [hsd] at hd; simp at hd
        | cons kv kvs =>
          rw [hsd] at hd
          simp only [List.zipWith_cons_cons, List.cons.injEq] at hd
          rw [← hd.1]
          rfl
  obtain ⟨hq', d', hc', hd3, hlo, hup, hpt⟩ := he s d hq hs h0 h3
  have hel : Unique.elevateDegrees elevate 1 s (List.replicate (3 - d.deg) 0) = some (elevate s 0 (3 - d.deg), true) := by
    obtain h | h : d.deg = 1 ∨ d.deg = 2 := by omega
    · rw [h]; rfl
    · rw [h]; rfl
  refine ⟨elevate s 0 (3 - d.deg), ?_, ?_⟩
  · unfold approximateCurve
    simp only [hdeg, hs.polynomial]
    rw [if_pos ⟨by omega, by simp⟩, hel]
    simp only [Option.bind_some, if_true]
    rw [if_pos (Or.inr (Or.inl (by rw [hc'.polynomial]; rfl)))]
  · obtain ⟨spans, hcons, hall⟩ := hb _ d' hq' hc' hd3
    have hlt := upper_gt hs
    have hne : (beziers (elevate s 0 (3 - d.deg))).map (·.controlPoints) ≠ [] := by
      intro hnil
      rw [List.map_eq_nil_iff] at hnil
      rw [hnil] at hall
      cases hall
      rw [hlo, hup] at hcons
      exact hlt.ne hcons
    rw [← hlo, ← hup]
    have hin : ∀ (spans : List (K × K)) (a : K), Spec.Consecutive a d'.upper spans → d'.lower ≤ a → a ≤ d'.upper ∧ ∀ i ∈ spans, d'.lower ≤ i.1 ∧ i.1 ≤ i.2 ∧ i.2 ≤ d'.upper := by
      intro spans
      induction spans with
      | nil => intro a h _; exact ⟨le_of_eq h, by simp⟩
      | cons i spans ih =>
        rintro a ⟨rfl, h2, h3⟩ ha
        obtain ⟨g1, g2⟩ := ih _ h3 (ha.trans h2)
        refine ⟨h2.trans g1, fun j hj => ?_⟩
        rcases List.mem_cons.1 hj with rfl | hj
        · exact ⟨ha, h2, g1⟩
        · exact g2 j hj
    refine (traces_of_spans minX maxY _ hcons ?_ hne).2
    rw [List.forall₂_map_right_iff]
    have hmem := (hin spans _ hcons le_rfl).2
    refine List.Forall₂.imp ?_ (List.forall₂_iff_zip.2 ⟨hall.length_eq, fun {i r} hir => (⟨(List.forall₂_iff_zip.1 hall).2 hir, hmem i (List.of_mem_zip hir).1⟩ :
      (r.degrees = [3] ∧ r.knotVectors = none ∧ r.weights = none ∧ r.controlPoints.length = 4 ∧
      ∀ t, 0 ≤ t → t ≤ 1 → ∀ k < 2, point r [t] k = point (elevate s 0 (3 - d.deg)) [i.1 + t * (i.2 - i.1)] k) ∧ (d'.lower ≤ i.1 ∧ i.1 ≤ i.2 ∧ i.2 ≤ d'.upper))⟩)
    rintro i r ⟨⟨r1, r2, r3, r4, r5⟩, i1, i2, i3⟩
    refine ⟨r4, fun t t0 t1 => ?_⟩
    rw [bezierAt_eq minX maxY r1 r2 r3]
    unfold Spec.positionAt
    have hx : d.Contains (i.1 + t * (i.2 - i.1)) := by
      have g1 := mul_nonneg t0 (sub_nonneg.2 i2)
      have g2 := mul_le_of_le_one_left (sub_nonneg.2 i2) t1
      unfold Direction.Contains
      rw [← hlo, ← hup]
      exact ⟨by linarith, by linarith⟩
    rw [r5 t t0 t1 0 (by norm_num), r5 t t0 t1 1 (by norm_num), hpt _ hx 0 (by norm_num), hpt _ hx 1 (by norm_num)]

/-- C95: the path of a polynomial curve of degree one or two consists of exactly the points of the curve, at their places in the picture. -/
theorem curve_path_draws_partial {Q : Spline K (List K) → Prop} {elevate : Spline K (List K) → ℕ → ℕ → Spline K (List K)} (he : Spec.Elevates Q elevate) (fit : Spline K (List K) → Option (Spline K (List K)))
    {beziers : Spline K (List K) → List (Spline K (List K))} (hb : Spec.Extracts Q beziers) (minX maxY : K) {s : Spline K (List K)} {d : Direction K} (hs : Spec.Curve s d)
    (hq : Q s) (h0 : 0 < d.deg) (h3 : d.deg < 3) :
    ∃ cmds, curvePath elevate fit beziers minX maxY s = some cmds ∧ ∀ q, Spec.Drawn none cmds q ↔ ∃ x, InDomain s [x] ∧ q = (point s [x] 0 - minX, maxY - point s [x] 1) := by
  obtain ⟨a, ha, T⟩ := curve_traces he fit hb minX maxY hs hq h0 h3
  obtain ⟨cmds, hc, hd, -⟩ := pathOf_draws minX maxY _ T.ne T.length T.joined
  refine ⟨cmds, by unfold curvePath; rw [ha]; exact hc, fun q => ?_⟩
  rw [hd, T.drawn]
  constructor
  · rintro ⟨x, x0, x1, rfl⟩
    refine ⟨x, ?_, rfl⟩
    unfold InDomain
    rw [hs.dir]
    exact .cons ⟨x0, x1⟩ .nil
  · rintro ⟨x, hx, rfl⟩
    unfold InDomain at hx
    rw [hs.dir] at hx
    cases hx with
    | cons h _ => exact ⟨x, h.1, h.2, rfl⟩

/-- C95 fails for cubic curves: the exporter asks `elevate_degrees` to raise no direction at all, which is undefined behaviour (see C61). -/
theorem cubic_path_violates (elevate : Spline K (List K) → ℕ → ℕ → Spline K (List K)) (fit : Spline K (List K) → Option (Spline K (List K)))
    (beziers : Spline K (List K) → List (Spline K (List K))) (minX maxY : K) (s : Spline K (List K)) (h : s.degrees = [3]) (hw : s.weights = none) :
    curvePath elevate fit beziers minX maxY s = none := by
  unfold curvePath approximateCurve
  simp only [h, hw]
  rfl

theorem flip_curve [Inhabited K] {s : Spline K (List K)} {d : Direction K} (hs : Spec.Curve s d) :
    ∃ t, flipAxes [0] s = some t ∧ Spec.Curve t (flipDirection d) ∧ (flipDirection d).deg = d.deg ∧ (flipDirection d).lower = d.lower ∧ (flipDirection d).upper = d.upper ∧
      ∀ x, d.Contains x → ∀ k, point t [x] k = point s [d.lower + d.upper - x] k := by
  have hlen : s.degrees.length = 1 := by
    have h1 : (directions s).length = 1 := by rw [hs.dir]; rfl
    have h2 : (netSize s).length = 1 := by simp [netSize, h1]
    rw [← ExtractSpline.netSize_eq_resolutions, cmr_length (consistent_of_valid hs.valid)] at h2
    exact h2
  have hax : [(0 : ℤ)].mapM (pyIndex s.degrees.length) = some [0] := by rw [hlen]; rfl
  have hc0 : ∀ i ∈ [0], ∀ d', (directions s)[i]? = some d' → Index.Spec.ContinuousKnots d' := by
    intro i hi d' hd'
    rw [List.mem_singleton] at hi
    subst hi
    rw [hs.dir] at hd'
    simp only [List.getElem?_cons_zero, Option.some.injEq] at hd'
    subst hd'
    exact hs.continuous
  obtain ⟨t, h1, h2, h3, h4, h5⟩ := flip_evaluates hs.valid [0] [0] hax (by simp) hc0
  obtain ⟨t', g1, g2, -, -, -, -, -, g8, g9⟩ := flip_spec [0] [0] s (consistent_of_valid hs.valid) hax
  rw [h1, Option.some.injEq] at g1
  subst g1
  have hdir := flip_directions hs.valid g2 g8 (g9 (by simp))
  have hdt : directions t = [flipDirection d] := by
    rw [hdir, hs.dir]
    rfl
  have hv := hs.valid.dirs d (by rw [hs.dir]; simp)
  obtain ⟨-, f2, f3, -⟩ := flipDirection_spec hv
  refine ⟨t, h1, ⟨h2, hdt, by simpa [hs.polynomial] using h4, ?_⟩, rfl, f2, f3, fun x hx k => ?_⟩
  · intro kv' hk x x1 x2
    rw [f2] at x1
    rw [f3] at x2
    obtain ⟨p, knots⟩ := d
    cases knots with
    | none => simp [flipDirection] at hk
    | some kv =>
      simp only [flipDirection, Option.map_some, Option.some.injEq] at hk
      subst hk
      obtain ⟨-, n2, -⟩ := hv kv rfl
      simp only at n2
      simp only [flipDirection]
      have hb1 : kv.getD p default = (⟨p, some kv⟩ : Direction K).lower := knotSeq_getD (by omega)
      have hb2 : kv.getD (kv.length - p - 1) default = (⟨p, some kv⟩ : Direction K).upper := knotSeq_getD (by omega)
      set lo := (⟨p, some kv⟩ : Direction K).lower with hlo
      set up := (⟨p, some kv⟩ : Direction K).upper with hup
      have e : (flipKnots p kv).count x = kv.count (lo + up - x) := by
        unfold flipKnots bounds
        simp only [hb1, hb2]
        have hinj : Function.Injective fun k : K => lo + up - k := fun a b h => by simpa using h
        have := List.count_map_of_injective kv.reverse (fun k : K => lo + up - k) hinj (lo + up - x)
        rw [List.count_reverse, show lo + up - (lo + up - x) = x by ring] at this
        exact this
      rw [e]
      exact hs.continuous kv rfl _ (by linarith) (by linarith)
  · obtain ⟨-, -, h6⟩ := h5 [x] (by unfold InDomain; rw [hs.dir]; exact .cons hx .nil)
    rw [h6]
    congr 1
    simp [Index.Spec.mirrorParameter, hs.dir]

theorem joined_append (minX maxY : K) {A B : List (List (List K))} (hA : Joined minX maxY A) (hB : Joined minX maxY B)
    (h : ∀ a ∈ A.getLast?, ∀ b ∈ B.head?, place minX maxY (a.getD 3 []) = place minX maxY (b.getD 0 [])) : Joined minX maxY (A ++ B) := by
  induction A with
  | nil => exact hB
  | cons a A ih =>
    cases A with
    | nil =>
      cases B with
      | nil => trivial
      | cons b B => exact ⟨h a (by simp) b (by simp), hB⟩
    | cons a' A =>
      exact ⟨hA.1, ih hA.2 (fun x hx => h x (by rw [List.getLast?_cons_cons]; exact hx))⟩

/-- one side of a surface -/
theorem side_curve {s : Spline K (List K)} (hs : ValidSpline s) (hw : s.weights = none) {d0 d1 : Direction K} (hd : directions s = [d0, d1]) (hc : ∀ d ∈ [d0, d1], Index.Spec.ContinuousKnots d)
    (b : ℕ) (hb : b < 4) (hcl : Boundary.Spec.ClampedAt (if b / 2 = 0 then d0 else d1) b) :
    ∃ r, Boundary.boundary s b = some r ∧ Spec.Curve r (if b / 2 = 0 then d1 else d0) ∧
      ∀ x, (if b / 2 = 0 then d1 else d0).Contains x → ∀ k, point r [x] k =
        point s (if b / 2 = 0 then [Boundary.Spec.faceParameter d0 b, x] else [x, Boundary.Spec.faceParameter d1 b]) k := by
  have hlen : s.degrees.length = 2 := by
    have h2 : (netSize s).length = 2 := by simp [netSize, hd]
    rw [← ExtractSpline.netSize_eq_resolutions, cmr_length (consistent_of_valid hs)] at h2
    exact h2
  have hvalid : ∀ d ∈ [d0, d1], d.Valid := fun d hm => hs.dirs d (by rw [hd]; exact hm)
  have hface : ∀ d ∈ [d0, d1], d.Contains (Boundary.Spec.faceParameter d b) := by
    intro d hm
    have hlt : d.lower ≤ d.upper := by
      have hv := hvalid d hm
      obtain ⟨p, knots⟩ := d
      cases knots with
      | none => exact zero_le_one
      | some kv => exact (hv kv rfl).2.2.le
    unfold Boundary.Spec.faceParameter
    split
    · exact ⟨le_rfl, hlt⟩
    · exact ⟨hlt, le_rfl⟩
  obtain h | h : b / 2 = 0 ∨ b / 2 = 1 := by omega
  · rw [h] at hcl
    simp only [h, if_true] at hcl ⊢
    obtain ⟨r, r1, r2, -, -, r5, r6, r7⟩ := Boundary.boundary_restricts hs (by omega) (b := b) (d := d0) (by rw [hd, h]; rfl) hcl
    rw [h] at r6 r7
    refine ⟨r, r1, ⟨r2, by rw [r6, hd]; rfl, by simpa [hw] using r5, hc d1 (by simp)⟩, fun x hx k => ?_⟩
    exact (r7 [Boundary.Spec.faceParameter d0 b, x] (by unfold InDomain; rw [hd]; exact .cons (hface d0 (by simp)) (.cons hx .nil)) rfl).2 k
  · rw [h] at hcl
    simp only [h, one_ne_zero, if_false] at hcl ⊢
    obtain ⟨r, r1, r2, -, -, r5, r6, r7⟩ := Boundary.boundary_restricts hs (by omega) (b := b) (d := d1) (by rw [hd, h]; rfl) hcl
    rw [h] at r6 r7
    refine ⟨r, r1, ⟨r2, by rw [r6, hd]; rfl, by simpa [hw] using r5, hc d0 (by simp)⟩, fun x hx k => ?_⟩
    exact (r7 [x, Boundary.Spec.faceParameter d1 b] (by unfold InDomain; rw [hd]; exact .cons hx (.cons (hface d1 (by simp)) .nil)) rfl).2 k

/-- C95: the path of a polynomial surface of degrees one or two is closed, and it consists of exactly the points of the boundary of the surface, at their places in the picture. -/
theorem surface_path_draws_partial [Inhabited K] {Q : Spline K (List K) → Prop} {elevate : Spline K (List K) → ℕ → ℕ → Spline K (List K)} (he : Spec.Elevates Q elevate)
    (fit : Spline K (List K) → Option (Spline K (List K))) {beziers : Spline K (List K) → List (Spline K (List K))} (hb : Spec.Extracts Q beziers) (minX maxY : K)
    {s : Spline K (List K)} (hs : ValidSpline s) (hw : s.weights = none) {d0 d1 : Direction K} (hd : directions s = [d0, d1]) (hdeg : ∀ d ∈ [d0, d1], 0 < d.deg ∧ d.deg < 3)
    (hc : ∀ d ∈ [d0, d1], Index.Spec.ContinuousKnots d) (hcl : ∀ d ∈ [d0, d1], Boundary.Spec.ClampedAt d 0 ∧ Boundary.Spec.ClampedAt d 1)
    (hq : ∀ b r, Boundary.boundary s b = some r → Q r ∧ ∀ t, flipAxes [0] r = some t → Q t) :
    ∃ cmds, surfacePath elevate fit beziers minX maxY s = some cmds ∧ Spec.Closed cmds ∧
      ∀ q, Spec.Drawn none cmds q ↔ ∃ x y, InDomain s [x, y] ∧ (x = d0.lower ∨ x = d0.upper ∨ y = d1.lower ∨ y = d1.upper) ∧
        q = (point s [x, y] 0 - minX, maxY - point s [x, y] 1) := by
  have hlen : s.degrees.length = 2 := by
    have h2 : (netSize s).length = 2 := by simp [netSize, hd]
    rw [← ExtractSpline.netSize_eq_resolutions, cmr_length (consistent_of_valid hs)] at h2
    exact h2
  obtain ⟨k0, k0'⟩ := hcl d0 (by simp)
  obtain ⟨k1, k1'⟩ := hcl d1 (by simp)
  obtain ⟨b0, e0, c0, p0⟩ := side_curve hs hw hd hc 0 (by norm_num) (by simpa using k0)
  obtain ⟨b1, e1, c1, p1⟩ := side_curve hs hw hd hc 1 (by norm_num) (by simpa using k0')
  obtain ⟨b2, e2, c2, p2⟩ := side_curve hs hw hd hc 2 (by norm_num) (by simpa [Boundary.Spec.ClampedAt] using k1)
  obtain ⟨b3, e3, c3, p3⟩ := side_curve hs hw hd hc 3 (by norm_num) (by simpa [Boundary.Spec.ClampedAt] using k1')
  norm_num [Boundary.Spec.faceParameter] at c0 c1 c2 c3 p0 p1 p2 p3
  obtain ⟨f0, g0, q0, a0, l0, u0, m0⟩ := flip_curve c0
  obtain ⟨f3, g3, q3, a3, l3, u3, m3⟩ := flip_curve c3
  obtain ⟨z2, y2, T2⟩ := curve_traces he fit hb minX maxY c2 (hq 2 _ e2).1 (hdeg d0 (by simp)).1 (hdeg d0 (by simp)).2
  obtain ⟨z1, y1, T1⟩ := curve_traces he fit hb minX maxY c1 (hq 1 _ e1).1 (hdeg d1 (by simp)).1 (hdeg d1 (by simp)).2
  obtain ⟨z3, y3, T3⟩ := curve_traces he fit hb minX maxY q3 ((hq 3 _ e3).2 _ g3) (by rw [a3]; exact (hdeg d0 (by simp)).1) (by rw [a3]; exact (hdeg d0 (by simp)).2)
  obtain ⟨z0, y0, T0⟩ := curve_traces he fit hb minX maxY q0 ((hq 0 _ e0).2 _ g0) (by rw [a0]; exact (hdeg d1 (by simp)).1) (by rw [a0]; exact (hdeg d1 (by simp)).2)
  rw [l3, u3] at T3
  rw [l0, u0] at T0
  have ld0 := (upper_gt c2).le
  have ld1 := (upper_gt c1).le
  -- positions on the four sides
  have P2 : ∀ x, d0.lower ≤ x → x ≤ d0.upper → Spec.positionAt minX maxY b2 [x] = Spec.positionAt minX maxY s [x, d1.lower] := by
    intro x h1 h2
    unfold Spec.positionAt
    rw [p2 x ⟨h1, h2⟩, p2 x ⟨h1, h2⟩]
  have P1 : ∀ x, d1.lower ≤ x → x ≤ d1.upper → Spec.positionAt minX maxY b1 [x] = Spec.positionAt minX maxY s [d0.upper, x] := by
    intro x h1 h2
    unfold Spec.positionAt
    rw [p1 x ⟨h1, h2⟩, p1 x ⟨h1, h2⟩]
  have P3 : ∀ x, d0.lower ≤ x → x ≤ d0.upper → Spec.positionAt minX maxY f3 [x] = Spec.positionAt minX maxY s [d0.lower + d0.upper - x, d1.upper] := by
    intro x h1 h2
    unfold Spec.positionAt
    rw [m3 x ⟨h1, h2⟩, m3 x ⟨h1, h2⟩, p3 _ ⟨by linarith, by linarith⟩, p3 _ ⟨by linarith, by linarith⟩]
  have P0 : ∀ x, d1.lower ≤ x → x ≤ d1.upper → Spec.positionAt minX maxY f0 [x] = Spec.positionAt minX maxY s [d0.lower, d1.lower + d1.upper - x] := by
    intro x h1 h2
    unfold Spec.positionAt
    rw [m0 x ⟨h1, h2⟩, m0 x ⟨h1, h2⟩, p0 _ ⟨by linarith, by linarith⟩, p0 _ ⟨by linarith, by linarith⟩]
  set A2 := (beziers z2).map (·.controlPoints) with hA2
  set A1 := (beziers z1).map (·.controlPoints) with hA1
  set A3 := (beziers z3).map (·.controlPoints) with hA3
  set A0 := (beziers z0).map (·.controlPoints) with hA0
  have j3 : Joined minX maxY (A3 ++ A0) := by
    refine joined_append minX maxY T3.joined T0.joined fun a ha b hb => ?_
    rw [T3.last a ha, T0.first b hb, P3 _ ld0 le_rfl, P0 _ le_rfl ld1, show d0.lower + d0.upper - d0.upper = d0.lower by ring,
      show d1.lower + d1.upper - d1.lower = d1.upper by ring]
  have j1 : Joined minX maxY (A1 ++ (A3 ++ A0)) := by
    refine joined_append minX maxY T1.joined j3 fun a ha b hb => ?_
    rw [List.head?_append_of_ne_nil _ T3.ne] at hb
    rw [T1.last a ha, T3.first b hb, P1 _ ld1 le_rfl, P3 _ le_rfl ld0, show d0.lower + d0.upper - d0.lower = d0.upper by ring]
  have j2 : Joined minX maxY (A2 ++ (A1 ++ (A3 ++ A0))) := by
    refine joined_append minX maxY T2.joined j1 fun a ha b hb => ?_
    rw [List.head?_append_of_ne_nil _ T1.ne] at hb
    rw [T2.last a ha, T1.first b hb, P2 _ ld0 le_rfl, P1 _ le_rfl ld1]
  have hne : A2 ++ (A1 ++ (A3 ++ A0)) ≠ [] := by simp [T2.ne]
  obtain ⟨cmds, hcm, hdr, hclosed⟩ := pathOf_draws minX maxY _ hne (by
    intro cps hm
    simp only [List.mem_append] at hm
    rcases hm with h | h | h | h
    · exact T2.length _ h
    · exact T1.length _ h
    · exact T3.length _ h
    · exact T0.length _ h) j2
  refine ⟨cmds, ?_, hclosed ?_, fun q => ?_⟩
  · have hbs : Boundary.boundaries s [] = some [b0, b1, b2, b3] := by
      unfold Boundary.boundaries
      rw [if_pos rfl, hlen, show List.range (2 * 2) = [0, 1, 2, 3] from rfl]
      simp [e0, e1, e2, e3]
    unfold surfacePath
    rw [hbs]
    simp only [Option.bind_some, List.getElem?_cons_zero, List.getElem?_cons_succ, g0, g3]
    simp only [List.mapM_cons, List.mapM_nil, y2, y1, y3, y0]
    simp only [Option.bind_eq_bind, Option.bind_some, Option.pure_def, List.flatMap_cons, List.flatMap_nil, List.append_nil, List.map_append]
    exact hcm
  · have h1 := T0.last _ (List.getLast?_eq_some_getLast T0.ne)
    have h2 := T2.first _ (List.head?_eq_some_head T2.ne)
    rw [P0 _ ld1 le_rfl] at h1
    rw [P2 _ le_rfl ld0] at h2
    have g1 : (A2 ++ (A1 ++ (A3 ++ A0))).getLast hne = A0.getLast T0.ne := by
      rw [List.getLast_append_of_ne_nil _ (by simp [T1.ne]), List.getLast_append_of_ne_nil _ (by simp [T3.ne]), List.getLast_append_of_ne_nil _ T0.ne]
    have g2 : (A2 ++ (A1 ++ (A3 ++ A0))).head hne = A2.head T2.ne := List.head_append_of_ne_nil T2.ne
    rw [g1, g2, h1, h2, show d1.lower + d1.upper - d1.upper = d1.lower by ring]
  · rw [hdr]
    have hsplit : (∃ cps ∈ A2 ++ (A1 ++ (A3 ++ A0)), ∃ t, 0 ≤ t ∧ t ≤ 1 ∧ q = bezierAt minX maxY cps t) ↔
        (∃ cps ∈ A2, ∃ t, 0 ≤ t ∧ t ≤ 1 ∧ q = bezierAt minX maxY cps t) ∨ (∃ cps ∈ A1, ∃ t, 0 ≤ t ∧ t ≤ 1 ∧ q = bezierAt minX maxY cps t) ∨
        (∃ cps ∈ A3, ∃ t, 0 ≤ t ∧ t ≤ 1 ∧ q = bezierAt minX maxY cps t) ∨ (∃ cps ∈ A0, ∃ t, 0 ≤ t ∧ t ≤ 1 ∧ q = bezierAt minX maxY cps t) := by
      simp only [List.mem_append, or_and_right, exists_or]
    rw [hsplit, T2.drawn, T1.drawn, T3.drawn, T0.drawn]
    have hin : ∀ x y, InDomain s [x, y] ↔ (d0.lower ≤ x ∧ x ≤ d0.upper) ∧ (d1.lower ≤ y ∧ y ≤ d1.upper) := by
      intro x y
      unfold InDomain
      rw [hd]
      simp [Direction.Contains]
    constructor
    · rintro (⟨x, x0, x1, rfl⟩ | ⟨x, x0, x1, rfl⟩ | ⟨x, x0, x1, rfl⟩ | ⟨x, x0, x1, rfl⟩)
      · exact ⟨x, d1.lower, (hin _ _).2 ⟨⟨x0, x1⟩, le_rfl, ld1⟩, by simp, P2 x x0 x1⟩
      · exact ⟨d0.upper, x, (hin _ _).2 ⟨⟨ld0, le_rfl⟩, x0, x1⟩, by simp, P1 x x0 x1⟩
      · exact ⟨_, d1.upper, (hin _ _).2 ⟨⟨by linarith, by linarith⟩, ld1, le_rfl⟩, by simp, P3 x x0 x1⟩
      · exact ⟨d0.lower, _, (hin _ _).2 ⟨⟨le_rfl, ld0⟩, by linarith, by linarith⟩, by simp, P0 x x0 x1⟩
    · rintro ⟨x, y, hxy, hside, rfl⟩
      obtain ⟨⟨x0, x1⟩, y0, y1⟩ := (hin _ _).1 hxy
      rcases hside with rfl | rfl | rfl | rfl
      · refine Or.inr (Or.inr (Or.inr ⟨d1.lower + d1.upper - y, by linarith, by linarith, ?_⟩))
        rw [P0 _ (by linarith) (by linarith), show d1.lower + d1.upper - (d1.lower + d1.upper - y) = y by ring]
        rfl
      · exact Or.inr (Or.inl ⟨y, y0, y1, (P1 y y0 y1).symm⟩)
      · exact Or.inl ⟨x, x0, x1, (P2 x x0 x1).symm⟩
      · refine Or.inr (Or.inr (Or.inl ⟨d0.lower + d0.upper - x, by linarith, by linarith, ?_⟩))
        rw [P3 _ (by linarith) (by linarith), show d0.lower + d0.upper - (d0.lower + d0.upper - x) = x by ring]
        rfl

/-- an elevation of Bezier curves that meets the contract -/
def exampleElevate (s : Spline K (List K)) (_ m : ℕ) : Spline K (List K) :=
  let c := fun i : ℕ => s.controlPoints.getD i []
  let mix := fun (a b : K) (p q : List K) => [a * p.getD 0 0 + b * q.getD 0 0, a * p.getD 1 0 + b * q.getD 1 0]
  ⟨[3], none, none, if m = 2 then [c 0, mix (2 / 3) (1 / 3) (c 0) (c 1), mix (1 / 3) (2 / 3) (c 0) (c 1), c 1]
    else [c 0, mix (1 / 3) (2 / 3) (c 0) (c 1), mix (2 / 3) (1 / 3) (c 1) (c 2), c 2]⟩

theorem bezier_point_one {s : Spline K (List K)} (h1 : s.degrees = [1]) (h2 : s.knotVectors = none) (h3 : s.weights = none) (t : K) (k : ℕ) :
    point s [t] k = (1 - t) * (s.controlPoints.getD 0 []).getD k 0 + t * (s.controlPoints.getD 1 []).getD k 0 := by
  have hd : directions s = [⟨1, none⟩] := by simp [directions, h1, h2]
  unfold point value
  rw [h3]
  simp only [netSize, basisValues, hd, List.map_cons, List.map_nil, List.zipWith_cons_cons, List.zipWith_nil_left, Direction.size, List.prod_cons, List.prod_nil, mul_one,
    tensorEval_eq_sum]
  simp only [Finset.sum_range_succ, Finset.sum_range_zero, zero_add]
  simp only [digits, basisProduct, List.zipWith_cons_cons, List.zipWith_nil_left, List.prod_cons, List.prod_nil, mul_one, Direction.basis, bernstein]
  norm_num [Nat.choose, List.range_succ]

theorem bezier_point_two {s : Spline K (List K)} (h1 : s.degrees = [2]) (h2 : s.knotVectors = none) (h3 : s.weights = none) (t : K) (k : ℕ) :
    point s [t] k = (1 - t) ^ 2 * (s.controlPoints.getD 0 []).getD k 0 + 2 * (1 - t) * t * (s.controlPoints.getD 1 []).getD k 0 +
      t ^ 2 * (s.controlPoints.getD 2 []).getD k 0 := by
  have hd : directions s = [⟨2, none⟩] := by simp [directions, h1, h2]
  unfold point value
  rw [h3]
  simp only [netSize, basisValues, hd, List.map_cons, List.map_nil, List.zipWith_cons_cons, List.zipWith_nil_left, Direction.size, List.prod_cons, List.prod_nil, mul_one,
    tensorEval_eq_sum]
  simp only [Finset.sum_range_succ, Finset.sum_range_zero, zero_add]
  simp only [digits, basisProduct, List.zipWith_cons_cons, List.zipWith_nil_left, List.prod_cons, List.prod_nil, mul_one, Direction.basis, bernstein]
  simp only [Nat.choose, List.range_succ, List.range_zero, List.nil_append, List.cons_append, List.map_cons, List.map_nil, List.getD_cons_zero, List.getD_cons_succ]
  push_cast
  ring

theorem bezier_point_three {s : Spline K (List K)} (h1 : s.degrees = [3]) (h2 : s.knotVectors = none) (h3 : s.weights = none) (t : K) (k : ℕ) :
    point s [t] k = (1 - t) ^ 3 * (s.controlPoints.getD 0 []).getD k 0 + 3 * (1 - t) ^ 2 * t * (s.controlPoints.getD 1 []).getD k 0 +
      3 * (1 - t) * t ^ 2 * (s.controlPoints.getD 2 []).getD k 0 + t ^ 3 * (s.controlPoints.getD 3 []).getD k 0 := by
  have hd : directions s = [⟨3, none⟩] := by simp [directions, h1, h2]
  unfold point value
  rw [h3]
  simp only [netSize, basisValues, hd, List.map_cons, List.map_nil, List.zipWith_cons_cons, List.zipWith_nil_left, Direction.size, List.prod_cons, List.prod_nil, mul_one,
    tensorEval_eq_sum]
  simp only [Finset.sum_range_succ, Finset.sum_range_zero, zero_add]
  simp only [digits, basisProduct, List.zipWith_cons_cons, List.zipWith_nil_left, List.prod_cons, List.prod_nil, mul_one, Direction.basis, bernstein]
  simp only [Nat.choose, List.range_succ, List.range_zero, List.nil_append, List.cons_append, List.map_cons, List.map_nil, List.getD_cons_zero, List.getD_cons_succ]
  push_cast
  ring

/-- the contracts can be met: Bezier curves -/
theorem example_contracts : Spec.Elevates (fun s : Spline K (List K) => s.knotVectors = none) exampleElevate ∧
    Spec.Extracts (fun s : Spline K (List K) => s.knotVectors = none) (fun s => [s]) := by
  have hdeg : ∀ (s : Spline K (List K)) d, s.knotVectors = none → Spec.Curve s d → s.degrees = [d.deg] ∧ d.knots = none := by
    intro s d hq hs
    have := hs.dir
    simp only [directions, hq] at this
    obtain ⟨a, h1, rfl⟩ := List.map_eq_singleton_iff.1 this
    exact ⟨h1, rfl⟩
  refine ⟨fun s d hq hs h0 h3 => ?_, fun s d hq hs h3 => ?_⟩
  · obtain ⟨h1, h2⟩ := hdeg s d hq hs
    obtain ⟨p, knots⟩ := d
    simp only at h0 h1 h2 h3
    subst h2
    refine ⟨rfl, ⟨3, none⟩, ⟨⟨fun kvs h => (by cases h), fun d' hd' => ?_, ?_, fun ws h => (by cases h)⟩, rfl, rfl, fun kv h => (by cases h)⟩, rfl, rfl, rfl, ?_⟩
    · simp only [exampleElevate, directions, List.map_cons, List.map_nil, List.mem_singleton] at hd'
      subst hd'
      intro kv h
      cases h
    · simp only [exampleElevate, netSize, directions]
      split <;> rfl
    · intro x hx k hk
      obtain h | h : p = 1 ∨ p = 2 := by omega
      · subst h
        rw [bezier_point_one h1 hq hs.polynomial, bezier_point_three (by rfl) (by rfl) (by rfl)]
        obtain h | h : k = 0 ∨ k = 1 := by omega
        · subst h
          simp only [exampleElevate, List.getD_cons_zero, List.getD_cons_succ, if_pos]
          ring
        · subst h
          simp only [exampleElevate, List.getD_cons_zero, List.getD_cons_succ, if_pos]
          ring
      · subst h
        rw [bezier_point_two h1 hq hs.polynomial, bezier_point_three (by rfl) (by rfl) (by rfl)]
        obtain h | h : k = 0 ∨ k = 1 := by omega
        · subst h
          simp only [exampleElevate, List.getD_cons_zero, List.getD_cons_succ, show ¬ 3 - 2 = 2 by omega, if_false]
          ring
        · subst h
          simp only [exampleElevate, List.getD_cons_zero, List.getD_cons_succ, show ¬ 3 - 2 = 2 by omega, if_false]
          ring
  · obtain ⟨h1, h2⟩ := hdeg s d hq hs
    obtain ⟨p, knots⟩ := d
    simp only at h1 h2 h3
    subst h2 h3
    refine ⟨[(0, 1)], ⟨rfl, zero_le_one, rfl⟩, .cons ⟨h1, hq, hs.polynomial, ?_, ?_⟩ .nil⟩
    · rw [hs.valid.net]
      simp [netSize, hs.dir, Direction.size]
    · intro t _ _ k _
      congr 2
      ring

example : ∃ s : Spline ℚ (List ℚ), ValidSpline s ∧ s.weights = none ∧ directions s = [⟨1, none⟩, ⟨2, none⟩] ∧
    (∀ b r, Boundary.boundary s b = some r → r.knotVectors = none ∧ ∀ t, flipAxes [0] r = some t → t.knotVectors = none) := by
  refine ⟨⟨[1, 2], none, none, [[0, 0], [1, 0], [0, 1], [2, 1], [0, 2], [1, 2]]⟩, ⟨fun kvs h => (by cases h), fun d hd => ?_, by decide, fun ws h => (by cases h)⟩, rfl, rfl, ?_⟩
  · simp only [directions, List.map_cons, List.map_nil, List.mem_cons, List.not_mem_nil, or_false] at hd
    intro kv h
    rcases hd with rfl | rfl <;> cases h
  · intro b r h
    have hr : r.knotVectors = none := by
      unfold Boundary.boundary at h
      rw [if_neg (by decide)] at h
      simp only [Option.bind_eq_some_iff, Option.some.injEq] at h
      obtain ⟨ids, -, pts, -, rfl⟩ := h
      rfl
    refine ⟨hr, fun t ht => ?_⟩
    unfold flipAxes at ht
    rw [hr] at ht
    split at ht
    · cases ht
    · rename_i rev kvs heq
      rw [Option.map_eq_some_iff] at ht
      obtain ⟨ids, -, rfl⟩ := ht
      simp only [flipLoop] at heq
      split at heq
      · cases heq
      · simp at heq
        exact heq.2.symm

end Splinepy.Svg
