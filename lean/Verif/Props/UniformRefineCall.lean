import Verif.Model.UniformRefineCall
import Verif.Props.MicroGeometry
import Verif.Props.UniformRefine

/-!
C146: `uniform_refine` as a whole: the directions and numbers of knots of the call, the knot spans of the refined spline, its points, and what remains after an exception.
-/
set_option linter.unusedSectionVars false
namespace Splinepy.UniformRefineCall
open Splinepy.Spec Splinepy.KnotInsertion Splinepy.AddKnots
open Splinepy.Index (Spline)
open Splinepy.BezierSpline (On)

variable {K : Type} [Field K] [LinearOrder K] [IsStrictOrderedRing K]

/-! ### specification -/

/-- What the arguments ask for, one after the other: direction and number of knots per span. -/
def Spec.Requested (paraDim : ℕ) (dims : Dims) (counts : Counts) (pairs : List (ℕ × ℕ)) : Prop :=
  (match dims with
    | .all => pairs.map (·.1) = List.range paraDim
    | .one i => pairs.map (fun e => (e.1 : ℤ)) = [i]
    | .list l => pairs.map (fun e => (e.1 : ℤ)) = l) ∧
  match counts with
    | .one c => ∀ e ∈ pairs, (e.2 : ℤ) = c
    | .list l => pairs.map (fun e => (e.2 : ℤ)) = l

/-- The breakpoints of all directions after the requests: each request divides every span of its direction into equal parts. -/
def Spec.refined : List (ℕ × ℕ) → List (List K) → List (List K)
  | [], b => b
  | (i, n) :: rest, b => Spec.refined rest (b.modify i fun u => Micro.Spec.subdivide u fun _ => n + 1)

/-! ### arguments -/

theorem requested_zip {paraDim : ℕ} {dims : Dims} {counts : Counts} {pairs : List (ℕ × ℕ)} (h : Spec.Requested paraDim dims counts pairs) :
    (nKnots (paraDims paraDim dims).length counts).length = (paraDims paraDim dims).length ∧
      (paraDims paraDim dims).zip (nKnots (paraDims paraDim dims).length counts) = pairs.map fun e => ((e.1 : ℤ), (e.2 : ℤ)) := by
  obtain ⟨h1, h2⟩ := h
  have hd : paraDims paraDim dims = pairs.map fun e => (e.1 : ℤ) := by
    cases dims with
    | all =>
      simp only at h1
      simp only [paraDims, ← h1, List.map_map]
      rfl
    | one i => exact h1.symm
    | list l => exact h1.symm
  have hn : nKnots (paraDims paraDim dims).length counts = pairs.map fun e => (e.2 : ℤ) := by
    rw [hd, List.length_map]
    cases counts with
    | one c =>
      symm
      rw [nKnots, List.eq_replicate_iff]
      refine ⟨by simp, ?_⟩
      intro b hb
      obtain ⟨e, he, rfl⟩ := List.mem_map.1 hb
      exact h2 e he
    | list l => exact h2.symm
  refine ⟨by rw [hn, hd]; simp, ?_⟩
  rw [hn, hd, List.zip_map']

/-! ### one direction -/

theorem modify_middle {α : Type} (a b : List α) (x : α) (f : α → α) : (a ++ x :: b).modify a.length f = a ++ f x :: b := by
  induction a with
  | nil => rfl
  | cons y a ih => simpa using ih

theorem zip_tail (u : List K) : u.zip u.tail = (List.range (u.length - 1)).map fun i => (u.getD i 0, u.getD (i + 1) 0) := by
  apply List.ext_getElem
  · simp
  · intro i h1 h2
    have : i + 1 < u.length := by simp at h1; omega
    simp [List.getD_eq_getElem?_getD, List.getElem?_eq_getElem this, List.getElem?_eq_getElem (show i < u.length by omega)]

theorem newKnots_eq (u : List K) (n : ℕ) : newKnots u (n : ℤ) = Micro.newOf u fun _ => n + 1 := by
  unfold newKnots uniformNewKnots Micro.newOf
  rw [Int.toNat_natCast]
  by_cases hn : n = 0
  · subst hn
    simp
  · rw [if_neg hn, zip_tail, List.flatMap_map]
    congr 1
    funext i
    rw [List.range'_eq_map_range, List.map_map]
    simp only [Nat.add_sub_cancel]
    apply List.map_congr_left
    intro j _
    simp only [Function.comp]
    push_cast
    ring

theorem adds_mono {tol tol' : K} (h : tol ≤ tol') {d d' : Dim K} {new : List K} (ha : Adds tol' d new d') : Adds tol d new d' :=
  ⟨ha.degree, ha.first, ha.last, valid_mono h ha.valid, ha.nodup, ha.inside, fun a m b m' hne => h.trans (ha.separated a m b m' hne), ha.counts⟩

theorem uniqueKnots_on {tol : K} (ht : 0 < tol) {s : Spline K (List K)} {ds : List (Dim K)} (hon : On s ds) (hv : ∀ d ∈ ds, d.Valid tol) :
    MicroGeometry.uniqueKnots tol s = ds.map (·.uniqueKnots) := by
  unfold MicroGeometry.uniqueKnots
  rw [hon.knots, hon.degrees]
  simp only [List.zipWith_map_left, List.zipWith_map_right, List.zipWith_self]
  apply List.map_congr_left
  intro d hd
  exact unique_knots_dim ht (hv d hd)

/-- what a call keeps -/
structure Keeps (F : Spline K (List K) → Prop) (dim : ℕ) (s q : Spline K (List K)) : Prop where
  valid : ValidSpline q
  cls : F q
  degrees : q.degrees = s.degrees
  rational : q.weights.isSome = s.weights.isSome
  rows : ∀ P ∈ q.controlPoints, P.length = dim
  same : ∀ u, InDomain s u → InDomain q u ∧ ∀ k, point q u k = point s u k

theorem refineOne_spec {tol : K} (ht : 0 < tol) {F : Spline K (List K) → Prop} {lib : MicroGeometry.Library K} (hL : MicroGeometry.Spec.Contract tol F lib) (dim : ℕ)
    {s : Spline K (List K)} (hs : ValidSpline s) (h0 : F s) (hdim : ∀ P ∈ s.controlPoints, P.length = dim) {ds : List (Dim K)} (hon : On s ds)
    (axis n : ℕ) (hax : axis < ds.length) {T : ℕ} (hT : 1 ≤ T) (hv : ∀ d ∈ ds, d.Valid ((((n + 1) * T : ℕ) : K) * tol)) :
    ∃ q ds', refineOne lib tol axis n s = some (q, true) ∧ Keeps F dim s q ∧ On q ds' ∧ (∀ d ∈ ds', d.Valid ((T : K) * tol)) ∧ ds'.length = ds.length ∧
      ds'.map (·.uniqueKnots) = (ds.map (·.uniqueKnots)).modify axis fun u => Micro.Spec.subdivide u fun _ => n + 1 := by
  have hT1 : (1 : K) ≤ T := by exact_mod_cast hT
  have hn1 : (1 : K) ≤ ((n + 1 : ℕ) : K) := by exact_mod_cast Nat.le_add_left 1 n
  have htT : 0 < (T : K) * tol := by positivity
  have hle : tol ≤ (T : K) * tol := by nlinarith
  have hcast : (((n + 1) * T : ℕ) : K) * tol = ((n + 1 : ℕ) : K) * ((T : K) * tol) := by push_cast; ring
  have hleT : (T : K) * tol ≤ (((n + 1) * T : ℕ) : K) * tol := by rw [hcast]; nlinarith
  have huk := uniqueKnots_on ht hon fun d hd => valid_mono (hle.trans hleT) (hv d hd)
  obtain ⟨d, hd⟩ : ∃ d, ds[axis]? = some d := ⟨_, List.getElem?_eq_getElem hax⟩
  have hdm := List.mem_of_getElem? hd
  obtain ⟨had, hun⟩ := adds_subdivide htT (t := n + 1) (by omega) (by rw [← hcast]; exact hv d hdm) (fun _ => n + 1) (fun _ => by omega) (fun _ _ => le_rfl)
  obtain ⟨hlt, hde⟩ := List.getElem?_eq_some_iff.1 hd
  set done := ds.take axis with hdone
  set rest := ds.drop (axis + 1) with hrest
  have hsplit : ds = done ++ d :: rest := by
    rw [hdone, hrest, ← hde, ← List.drop_eq_getElem_cons, List.take_append_drop]
  have hdl : done.length = axis := by rw [hdone, List.length_take]; omega
  obtain ⟨q, e1, e2, e3, e4, e5, e6, e7⟩ := MicroGeometry.insertFrom_spec ht hL dim
    [(d, Micro.newOf d.uniqueKnots fun _ => n + 1, withBreaks d (Micro.Spec.subdivide d.uniqueKnots fun _ => n + 1))] done rest
    (by intro e he; rw [List.mem_singleton] at he; subst he; exact adds_mono hle had) s hs h0 hdim (by simpa [← hsplit] using hon)
  simp only [List.map_cons, List.map_nil, MicroGeometry.insertFrom, hdl, List.cons_append, List.nil_append] at e1 e4
  have e1' : MicroGeometry.pyInsertKnots lib s axis (Micro.newOf d.uniqueKnots fun _ => n + 1) = some q := by
    obtain ⟨q', h1, h2⟩ := Option.bind_eq_some_iff.1 e1
    cases h2
    exact h1
  refine ⟨q, _, ?_, ⟨e2, e3, ?_, e5, e6, e7⟩, e4, ?_, ?_, ?_⟩
  · unfold refineOne
    have hidx : Index.pyIndex (ds.map (·.uniqueKnots)).length (axis : ℤ) = some axis := by
      unfold Index.pyIndex
      rw [List.length_map, if_pos ⟨by omega, by omega⟩, Int.toNat_natCast]
    simp only [huk, hidx, Option.bind_some, List.getElem?_map, hd, Option.map_some]
    rw [if_neg (by omega), Int.toNat_natCast, newKnots_eq, e1']
  · rw [e4.degrees, hon.degrees, hsplit]
    simp [withBreaks]
  · intro d' hd'
    rcases List.mem_append.1 hd' with h | h
    · exact valid_mono hleT (hv d' (by rw [hsplit]; simp [h]))
    · rcases List.mem_cons.1 h with rfl | h
      · exact had.valid
      · exact valid_mono hleT (hv d' (by rw [hsplit]; simp [h]))
  · rw [hsplit]; simp
  · conv_rhs => rw [hsplit]
    rw [List.map_append, List.map_append, List.map_cons, List.map_cons, hun]
    have := modify_middle (done.map (·.uniqueKnots)) (rest.map (·.uniqueKnots)) d.uniqueKnots fun u => Micro.Spec.subdivide u fun _ => n + 1
    rw [List.length_map, hdl] at this
    exact this.symm

theorem refineLoop_spec {tol : K} (ht : 0 < tol) {F : Spline K (List K) → Prop} {lib : MicroGeometry.Library K} (hL : MicroGeometry.Spec.Contract tol F lib) (dim : ℕ)
    (pairs : List (ℕ × ℕ)) {s : Spline K (List K)} (hs : ValidSpline s) (h0 : F s) (hdim : ∀ P ∈ s.controlPoints, P.length = dim) {ds : List (Dim K)} (hon : On s ds)
    (hax : ∀ e ∈ pairs, e.1 < ds.length) (hv : ∀ d ∈ ds, d.Valid ((((pairs.map fun e => e.2 + 1).prod : ℕ) : K) * tol)) :
    ∃ q ds', refineLoop lib tol (pairs.map fun e => ((e.1 : ℤ), (e.2 : ℤ))) s = some (q, true) ∧ Keeps F dim s q ∧ On q ds' ∧ (∀ d ∈ ds', d.Valid tol) ∧
      ds'.map (·.uniqueKnots) = Spec.refined pairs (ds.map (·.uniqueKnots)) := by
  induction pairs generalizing s ds with
  | nil => exact ⟨s, ds, rfl, ⟨hs, h0, rfl, rfl, hdim, fun u hu => ⟨hu, fun _ => rfl⟩⟩, hon, fun d hd => by simpa using hv d hd, rfl⟩
  | cons e pairs ih =>
    obtain ⟨i, n⟩ := e
    have hpos : 1 ≤ (pairs.map fun e => e.2 + 1).prod := by
      apply Nat.one_le_iff_ne_zero.2
      rw [Ne, List.prod_eq_zero_iff]
      intro h
      obtain ⟨e, -, h⟩ := List.mem_map.1 h
      omega
    obtain ⟨q, ds', a1, a2, a3, a4, a5, a6⟩ := refineOne_spec ht hL dim hs h0 hdim hon i n (hax (i, n) (by simp)) hpos (by simpa using hv)
    obtain ⟨r, ds'', b1, b2, b3, b4, b5⟩ := ih a2.valid a2.cls a2.rows a3 (by
      intro e he
      rw [a5]
      exact hax e (by simp [he])) a4
    refine ⟨r, ds'', ?_, ⟨b2.valid, b2.cls, b2.degrees.trans a2.degrees, b2.rational.trans a2.rational, b2.rows, ?_⟩, b3, b4, ?_⟩
    · rw [List.map_cons, refineLoop, a1]
      exact b1
    · intro u hu
      obtain ⟨h1, h2⟩ := a2.same u hu
      obtain ⟨h3, h4⟩ := b2.same u h1
      exact ⟨h3, fun k => (h4 k).trans (h2 k)⟩
    · rw [b5, a6]; rfl

/-- C146 (partial): a call of `uniform_refine` whose directions exist, on a spline with clamped knot vectors, returns and leaves a spline of the same degrees with the same points, whose spans are
those asked for: each request divides every span of its direction, as it is then, into `n + 1` equal parts. The spans stay longer than the tolerance. Missing: what happens with
directions that do not exist (`partly_refined_violates`, `negative_direction_violates`). -/
theorem uniform_refine_partial {tol : K} (ht : 0 < tol) {F : Spline K (List K) → Prop} {lib : MicroGeometry.Library K} (hL : MicroGeometry.Spec.Contract tol F lib) (dim : ℕ)
    (s : Spline K (List K)) (hs : ValidSpline s) (h0 : F s) (hdim : ∀ P ∈ s.controlPoints, P.length = dim) (ds : List (Dim K)) (hon : On s ds)
    (dims : Dims) (counts : Counts) (pairs : List (ℕ × ℕ)) (hreq : Spec.Requested s.degrees.length dims counts pairs) (hax : ∀ e ∈ pairs, e.1 < s.degrees.length)
    (hv : ∀ d ∈ ds, d.Valid ((((pairs.map fun e => e.2 + 1).prod : ℕ) : K) * tol)) :
    ∃ q, uniformRefine lib tol dims counts s = some (q, true) ∧ ValidSpline q ∧ q.degrees = s.degrees ∧ q.weights.isSome = s.weights.isSome ∧
      (∀ u, InDomain s u → InDomain q u ∧ ∀ k, point q u k = point s u k) ∧
      MicroGeometry.uniqueKnots tol q = Spec.refined pairs (ds.map (·.uniqueKnots)) := by
  have hlen : s.degrees.length = ds.length := by rw [hon.degrees, List.length_map]
  obtain ⟨z1, z2⟩ := requested_zip hreq
  obtain ⟨q, ds', a1, a2, a3, a4, a5⟩ := refineLoop_spec ht hL dim pairs hs h0 hdim hon (by rw [← hlen]; exact hax) hv
  refine ⟨q, ?_, a2.valid, a2.degrees, a2.rational, a2.same, ?_⟩
  · unfold uniformRefine
    simp only
    rw [if_neg (by rw [z1]; simp), z2, a1]
  · rw [uniqueKnots_on ht a3 a4, a5]

theorem refined_range (n : ℕ) (b1 b2 : List (List K)) :
    Spec.refined ((List.range' b1.length b2.length).map fun i => (i, n)) (b1 ++ b2) = b1 ++ b2.map fun u => Micro.Spec.subdivide u fun _ => n + 1 := by
  induction b2 generalizing b1 with
  | nil => simp [Spec.refined]
  | cons u b2 ih =>
    rw [List.length_cons, List.range'_succ, List.map_cons, Spec.refined, modify_middle]
    have := ih (b1 ++ [Micro.Spec.subdivide u fun _ => n + 1])
    simp only [List.length_append, List.length_singleton, List.append_assoc, List.cons_append, List.nil_append] at this
    simpa using this

/-- C146 for the default `para_dims=None` and one number: every span of every direction is divided into `n + 1` equal parts. -/
theorem uniform_refine_all {tol : K} (ht : 0 < tol) {F : Spline K (List K) → Prop} {lib : MicroGeometry.Library K} (hL : MicroGeometry.Spec.Contract tol F lib) (dim : ℕ)
    (s : Spline K (List K)) (hs : ValidSpline s) (h0 : F s) (hdim : ∀ P ∈ s.controlPoints, P.length = dim) (ds : List (Dim K)) (hon : On s ds) (n : ℕ)
    (hv : ∀ d ∈ ds, d.Valid ((((n + 1) ^ ds.length : ℕ) : K) * tol)) :
    ∃ q, uniformRefine lib tol .all (.one n) s = some (q, true) ∧ (∀ u, InDomain s u → ∀ k, point q u k = point s u k) ∧
      MicroGeometry.uniqueKnots tol q = ds.map fun d => Micro.Spec.subdivide d.uniqueKnots fun _ => n + 1 := by
  have hlen : s.degrees.length = ds.length := by rw [hon.degrees, List.length_map]
  obtain ⟨q, e1, -, -, -, e5, e6⟩ := uniform_refine_partial ht hL dim s hs h0 hdim ds hon .all (.one n) ((List.range s.degrees.length).map fun i => (i, n))
    ⟨by simp [Function.comp_def], by simp⟩ (by simp) (by
      intro d hd
      have := hv d hd
      simpa [List.map_map, Function.comp_def, hlen] using this)
  refine ⟨q, e1, fun u hu => (e5 u hu).2, ?_⟩
  rw [e6]
  have := refined_range n [] (ds.map (·.uniqueKnots))
  simp only [List.length_nil, List.length_map, List.nil_append, List.map_map, ← List.range_eq_range'] at this
  rw [hlen, this]
  rfl

/-- Numbers of directions and of knots that do not fit: exception, nothing changes. -/
theorem uniform_refine_mismatch (lib : MicroGeometry.Library K) (eps : K) (l ns : List ℤ) (h : ns.length ≠ l.length) (s : Spline K (List K)) :
    uniformRefine lib eps (.list l) (.list ns) s = some (s, false) := by
  unfold uniformRefine
  exact if_pos h

theorem refineLoop_append (lib : MicroGeometry.Library K) (eps : K) (a b : List (ℤ × ℤ)) {s q : Spline K (List K)} (h : refineLoop lib eps a s = some (q, true)) :
    refineLoop lib eps (a ++ b) s = refineLoop lib eps b q := by
  induction a generalizing s with
  | nil =>
    rw [refineLoop] at h
    cases h
    rfl
  | cons e a ih =>
    obtain ⟨i, n⟩ := e
    rw [refineLoop] at h
    rw [List.cons_append, refineLoop]
    revert h
    cases refineOne lib eps i n s with
    | none => intro h; cases h
    | some r =>
      obtain ⟨r, b'⟩ := r
      cases b' with
      | false => intro h; cases h
      | true => intro h; exact ih h

theorem subdivide_ne {u : List K} (hu : 2 ≤ u.length) {n : ℕ} (hn : 1 ≤ n) : (Micro.Spec.subdivide u fun _ => n + 1).length ≠ u.length := by
  rw [Micro.subdivide_length]
  simp only [Finset.sum_const, Finset.card_range, smul_eq_mul]
  have : (u.length - 1) * 2 ≤ (u.length - 1) * (n + 1) := Nat.mul_le_mul_left _ (by omega)
  omega

/-- C146 fails: a call with a direction that does not exist raises, but only after the directions before it have been refined. -/
theorem partly_refined_violates {tol : K} (ht : 0 < tol) {F : Spline K (List K) → Prop} {lib : MicroGeometry.Library K} (hL : MicroGeometry.Spec.Contract tol F lib) (dim : ℕ)
    (s : Spline K (List K)) (hs : ValidSpline s) (h0 : F s) (hdim : ∀ P ∈ s.controlPoints, P.length = dim) (ds : List (Dim K)) (hon : On s ds)
    (axis bad n m : ℕ) (hax : axis < s.degrees.length) (hbad : s.degrees.length ≤ bad) (hn : 1 ≤ n) (hv : ∀ d ∈ ds, d.Valid (((n + 1 : ℕ) : K) * tol)) :
    ∃ q, uniformRefine lib tol (.list [axis, bad]) (.list [n, m]) s = some (q, false) ∧ q ≠ s := by
  have hlen : s.degrees.length = ds.length := by rw [hon.degrees, List.length_map]
  obtain ⟨q, ds', a1, a2, a3, a4, a5⟩ := refineLoop_spec ht hL dim [(axis, n)] hs h0 hdim hon (by simpa [← hlen] using hax) (by simpa using hv)
  refine ⟨q, ?_, ?_⟩
  · unfold uniformRefine
    simp only [paraDims, nKnots, List.length_cons, List.length_nil, ne_eq, not_true_eq_false, if_false, List.zip_cons_cons, List.zip_nil_right]
    have := refineLoop_append lib tol [((axis : ℤ), (n : ℤ))] [((bad : ℤ), (m : ℤ))] a1
    rw [show [((axis : ℤ), (n : ℤ)), ((bad : ℤ), (m : ℤ))] = [((axis : ℤ), (n : ℤ))] ++ [((bad : ℤ), (m : ℤ))] from rfl, this, refineLoop]
    have hone : refineOne lib tol bad m q = some (q, false) := by
      unfold refineOne
      have hu : (MicroGeometry.uniqueKnots tol q).length = s.degrees.length := by
        rw [uniqueKnots_on ht a3 a4, List.length_map, ← a2.degrees, a3.degrees, List.length_map]
      have hidx : Index.pyIndex (MicroGeometry.uniqueKnots tol q).length (bad : ℤ) = none := by
        unfold Index.pyIndex
        rw [hu, if_neg (by omega), if_neg (by omega)]
      simp only [hidx, Option.bind_none]
    rw [hone]
  · rintro rfl
    have hvt : ∀ d ∈ ds, d.Valid tol := fun d hd => valid_mono (by
      have : (1 : K) ≤ ((n + 1 : ℕ) : K) := by exact_mod_cast Nat.le_add_left 1 n
      nlinarith) (hv d hd)
    have h1 := uniqueKnots_on ht a3 a4
    rw [uniqueKnots_on ht hon hvt, a5] at h1
    simp only [Spec.refined] at h1
    have h2 := congrArg (fun l => (l[axis]?).map List.length) h1
    have hd : ds[axis]? = some (ds[axis]'(by omega)) := List.getElem?_eq_getElem _
    simp only [List.getElem?_modify, List.getElem?_map, hd, Option.map_some, if_true, Option.some.injEq, Option.map_eq_map] at h2
    refine subdivide_ne ?_ hn h2.symm
    rw [unique_eq]
    simp

/-- C146 fails: a negative direction passes all checks, and the core reads a knot vector before the first one. -/
theorem negative_direction_violates {tol : K} (ht : 0 < tol) (lib : MicroGeometry.Library K) (s : Spline K (List K)) (ds : List (Dim K)) (hon : On s ds)
    (hv : ∀ d ∈ ds, d.Valid tol) (i n : ℕ) (hi : 1 ≤ i) (hi' : i ≤ s.degrees.length) (hn : 1 ≤ n) : uniformRefine lib tol (.one (-i)) (.one n) s = none := by
  have hlen : s.degrees.length = ds.length := by rw [hon.degrees, List.length_map]
  have hu := uniqueKnots_on ht hon hv
  unfold uniformRefine
  simp only [paraDims, nKnots, List.length_cons, List.length_nil, List.length_replicate, ne_eq, not_true_eq_false, if_false]
  rw [show List.replicate (0 + 1) (n : ℤ) = [(n : ℤ)] from rfl, List.zip_cons_cons, List.zip_nil_right, refineLoop]
  have hd : ds[ds.length - i]? = some (ds[ds.length - i]'(by omega)) := List.getElem?_eq_getElem _
  have hone : refineOne lib tol (-(i : ℤ)) n s = none := by
    unfold refineOne
    have hidx : Index.pyIndex (ds.map (·.uniqueKnots)).length (-(i : ℤ)) = some (ds.length - i) := by
      unfold Index.pyIndex
      rw [List.length_map, if_neg (by omega), if_pos (by omega)]
      congr 1
      omega
    simp only [hu, hidx, Option.bind_some, List.getElem?_map, hd, Option.map_some]
    rw [if_pos (by omega), if_neg]
    intro h
    have h2 : (newKnots (ds[ds.length - i]'(by omega)).uniqueKnots (n : ℤ)).length = 0 := by rw [h]; rfl
    unfold newKnots at h2
    rw [Int.toNat_natCast, uniform_length, unique_eq] at h2
    simp at h2
    omega
  rw [hone]

/-- A negative number of knots is accepted and does nothing. -/
theorem negative_count (lib : MicroGeometry.Library K) (eps : K) (s : Spline K (List K)) (kvs : List (List K)) (hk : s.knotVectors = some kvs) (hl : kvs.length = s.degrees.length)
    (axis n : ℕ) (hax : axis < s.degrees.length) : uniformRefine lib eps (.one axis) (.one (-n)) s = some (s, true) := by
  unfold uniformRefine
  simp only [paraDims, nKnots, List.length_cons, List.length_nil, List.length_replicate, ne_eq, not_true_eq_false, if_false]
  rw [show List.replicate (0 + 1) (-(n : ℤ)) = [-(n : ℤ)] from rfl, List.zip_cons_cons, List.zip_nil_right, refineLoop]
  have hul : (MicroGeometry.uniqueKnots eps s).length = s.degrees.length := by
    unfold MicroGeometry.uniqueKnots
    rw [hk]
    simp [hl]
  have hone : refineOne lib eps (axis : ℤ) (-(n : ℤ)) s = some (s, true) := by
    unfold refineOne
    have hidx : Index.pyIndex (MicroGeometry.uniqueKnots eps s).length (axis : ℤ) = some axis := by
      unfold Index.pyIndex
      rw [hul, if_pos ⟨by omega, by omega⟩, Int.toNat_natCast]
    have hnew : ∀ u : List K, newKnots u (-(n : ℤ)) = [] := by
      intro u
      unfold newKnots uniformNewKnots
      rw [if_pos (by omega)]
    simp only [hidx, Option.bind_some, List.getElem?_eq_getElem (show axis < (MicroGeometry.uniqueKnots eps s).length by omega), hnew]
    rw [if_neg (by omega), Int.toNat_natCast]
    unfold MicroGeometry.pyInsertKnots
    rw [hk, Option.getD_some, List.getElem?_eq_getElem (by omega)]
    simp
  rw [hone]
  rfl

/-! ### concrete cases -/

open MicroGeometry (sampleCurve someInsertAll exactEvaluate) in
/-- The curve with the spans `[0, 1/2]` and `[1/2, 1]`, refined twice in the same direction: first one, then two knots per span, with functions that meet the contract. -/
example : ∃ q, uniformRefine (⟨someInsertAll (1 / 1000), BezierSpline.someInsert (1 / 1000), BezierSpline.missing, BezierSpline.runs, fun _ _ => none, exactEvaluate⟩ : MicroGeometry.Library ℝ)
      (1 / 1000) (.list [0, 0]) (.list [1, 2]) sampleCurve = some (q, true) ∧ (∀ u, InDomain sampleCurve u → ∀ k, point q u k = point sampleCurve u k) ∧
    ((MicroGeometry.uniqueKnots (1 / 1000) q).map List.length) = [13] := by
  have hval : ValidSpline sampleCurve := by
    refine ⟨by rintro kvs ⟨⟩; rfl, ?_, by simp [sampleCurve, netSize, directions, Direction.size], by rintro ws ⟨⟩⟩
    intro d hd
    simp only [directions, sampleCurve, List.zipWith_cons_cons, List.zipWith_nil_left, List.mem_singleton] at hd
    subst hd
    rintro kv ⟨⟩
    refine ⟨?_, ?_⟩ <;> simp [Direction.lower, Direction.upper, knotSeq] <;> norm_num
  have hon : On sampleCurve [(⟨2, 0, [(1 / 2, 1)], 1⟩ : Dim ℝ)] := ⟨rfl, rfl⟩
  have hv : ∀ t : ℝ, t ≤ 1 / 2 → ∀ d ∈ [(⟨2, 0, [(1 / 2, 1)], 1⟩ : Dim ℝ)], d.Valid t := by
    intro t ht d hd
    rw [List.mem_singleton] at hd
    subst hd
    refine ⟨by norm_num, by simp, ?_⟩
    simp [Dim.groups]
    refine ⟨⟨by linarith, by linarith⟩, by linarith⟩
  obtain ⟨q, e1, -, -, -, e5, e6⟩ := uniform_refine_partial (tol := (1 / 1000 : ℝ)) (by norm_num) (MicroGeometry.contract_exists (by norm_num) fun _ _ => none) 2 sampleCurve hval
    ⟨hval, ⟨_, hv _ (by norm_num), hon⟩, 2, by simp [sampleCurve]⟩ (by simp [sampleCurve]) _ hon (.list [0, 0]) (.list [1, 2]) [(0, 1), (0, 2)] ⟨rfl, rfl⟩ (by simp [sampleCurve])
    (hv _ (by norm_num))
  refine ⟨q, e1, fun u hu => (e5 u hu).2, ?_⟩
  rw [e6]
  have hu : (⟨2, 0, [(1 / 2, 1)], 1⟩ : Dim ℝ).uniqueKnots = [0, 1 / 2, 1] := rfl
  rw [List.map_cons, List.map_nil, hu]
  simp [Spec.refined, Micro.subdivide_length]

end Splinepy.UniformRefineCall
